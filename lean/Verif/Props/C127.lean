import Verif.Props.C117
import Verif.Props.C126

/-! # C127: encoding does not depend on the order of Go's maps

Values are given to the encoder as `map[string]interface{}`, and Go walks maps in an order that differs from run to run. `Struct.Encode`
looks its members up in declared order; `Enum.Encode` and `Data.Encode` walk the map and take the first member that fits. So the encoding is
determined if no map that is encoded as an enum names two variants, and none that is encoded as identity data has two members; a map that
names two variants has two encodings. -/

namespace ScaleGo

namespace Spec

mutual
/-- The same Go value: the members of maps may be listed in different orders. -/
inductive Alike : Val → Val → Prop
  | same (v : Val) : Alike v v
  | slice {l l' : List Val} : AlikeList l l' → Alike (.slice l) (.slice l')
  | map {m m' : List (Str × Val)} : AlikeMap m m' → Alike (.map m) (.map m')
  | params {l l' : List (Str × Str × Val)} : AlikeParams l l' → Alike (.params l) (.params l')
  | boxCall {i : Str} {ps ps' as as' : List Val} : AlikeList ps ps' → AlikeList as as' → Alike (.boxCall i ps as) (.boxCall i ps' as')
/-- Lists are alike element by element. -/
inductive AlikeList : List Val → List Val → Prop
  | nil : AlikeList [] []
  | cons {v v' : Val} {l l' : List Val} : Alike v v' → AlikeList l l' → AlikeList (v :: l) (v' :: l')
/-- Maps are alike member by member, in any order; no key is listed twice. -/
inductive AlikeMap : List (Str × Val) → List (Str × Val) → Prop
  | nil : AlikeMap [] []
  | cons {k : Str} {v v' : Val} {m a b : List (Str × Val)} : Alike v v' → AlikeMap m (a ++ b) → k ∉ m.map Prod.fst →
      AlikeMap ((k, v) :: m) (a ++ (k, v') :: b)
/-- Lists of parameters are alike element by element. -/
inductive AlikeParams : List (Str × Str × Val) → List (Str × Str × Val) → Prop
  | nil : AlikeParams [] []
  | cons {n t : Str} {v v' : Val} {l l' : List (Str × Str × Val)} : Alike v v' → AlikeParams l l' → AlikeParams ((n, t, v) :: l) ((n, t, v') :: l')
end

/-- `json.Marshal` sorts the members of maps, so the JSON of a value, and what is read back from it, does not depend on their order. -/
structure SortedJson (ext : Ext) : Prop where
  json : ∀ v v', Alike v v' → ext.json v = ext.json v'
  boxCall : ∀ m m', AlikeMap m m' → ext.boxCall m = ext.boxCall m'

/-- The value given to a class makes it encode `x` by the text `u`. -/
inductive EncStep (ext : Ext) (md : Option MD) (cls : Cls) (s : Str) : Val → Str → Val → Prop
  | option {t : Str} {v : Val} : cls = .option t → EncStep ext md cls s v (if s = [] then t else s) v
  | vec {t : Str} {v x : Val} {l : List Val} : cls = .vec t → v.elems? = some l → x ∈ l → EncStep ext md cls s v (if t = [] then s else t) x
  | boundedVec {t : Str} {v x : Val} {l : List Val} : cls = .boundedVec t → v.elems? = some l → x ∈ l → EncStep ext md cls s v (boundedSub t s) x
  | authorities {v x : Val} {l : List Val} : cls = .authoritiesChange → v.elems? = some l → x ∈ l → EncStep ext md cls s v b!"AccountId" x
  | array {n : Int} {t : Str} {v x : Val} {l : List Val} : cls = .fixedArray n t → v.elems? = some l → x ∈ l → EncStep ext md cls s v t x
  | field {tm : List (Str × Str)} {n u : Str} {m : List (Str × Val)} : cls = .struct (some tm) → (n, u) ∈ tm →
      EncStep ext md cls s (.map m) u ((mapGet m n).getD .nil)
  | variant {vs : List Str} {tm : List (Str × Str)} {k u : Str} {x : Val} {m : List (Str × Val)} : cls = .enum vs (some tm) → (k, u) ∈ tm →
      (k, x) ∈ m → variantRows ext u = none → EncStep ext md cls s (.map m) u x
  | variantField {vs : List Str} {tm : List (Str × Str)} {k w n u : Str} {m vm : List (Str × Val)} {rows : List (List Str)} {r : List Str} :
      cls = .enum vs (some tm) → (k, w) ∈ tm → (k, .map vm) ∈ m → variantRows ext w = some rows → (n :: u :: r) ∈ rows →
      EncStep ext md cls s (.map m) u ((mapGet vm n).getD .nil)
  | ok {t a e : Str} {x : Val} {m : List (Str × Val)} : cls = .result t → splitSep (if s = [] then t else s) b!"," = [a, e] →
      (b!"Ok", x) ∈ m → EncStep ext md cls s (.map m) a x
  | error {t a e : Str} {x : Val} {m : List (Str × Val)} : cls = .result t → splitSep (if s = [] then t else s) b!"," = [a, e] →
      (b!"Error", x) ∈ m → EncStep ext md cls s (.map m) e x
  | arg {d : MD} {v x : Val} {i n u : Str} {ps as : List Val} {e : CallEntry} : cls = .call → md = some d → boxCallOf ext v = .ok (i, ps, as) →
      d.callIndex (trimHex i) = some e → ((n, u), x) ∈ e.args.zip (if as.isEmpty then ps else as) → EncStep ext md cls s v u x

/-- Encoding `v` by `t` comes to encoding `x` by `u`. -/
inductive Visits (env : Env) (ctx : ECtx) : Str → Val → Str → Val → Prop
  | here (t : Str) (v : Val) : Visits env ctx t v t v
  | next {t u w s : Str} {v x y : Val} {cls : Cls} : Resolves env [] ctx.spec t cls s → EncStep env.ext ctx.md cls s (argOf v) u x →
      Visits env ctx u x w y → Visits env ctx t v w y

/-- A class takes the same member of the map in whatever order it is walked. -/
def Decided (cls : Cls) (v : Val) : Prop :=
  match cls, v with
  | .enum _ (some tm), .map m => ∀ k ∈ m.map Prod.fst, ∀ k' ∈ m.map Prod.fst, k ∈ tm.map Prod.fst → k' ∈ tm.map Prod.fst → k = k'
  | .data, .map m => m.length ≤ 1
  | _, _ => True

/-- No map that encoding `v` by `t` comes to names two variants, or two forms of identity data. -/
def Definite (env : Env) (ctx : ECtx) (t : Str) (v : Val) : Prop :=
  ∀ u x, Visits env ctx t v u x → ∀ cls s, Resolves env [] ctx.spec u cls s → Decided cls x

end Spec

open ScaleGo.Spec (Alike AlikeList AlikeMap AlikeParams SortedJson EncStep Visits Decided Definite)

/-! ## Alike values -/

theorem Spec.AlikeList.same : ∀ l : List Val, AlikeList l l
  | [] => .nil
  | v :: l => .cons (.same v) (Spec.AlikeList.same l)

theorem Spec.AlikeList.length {l l' : List Val} (h : AlikeList l l') : l.length = l'.length := by
  induction l generalizing l' with
  | nil => cases h; rfl
  | cons v l ih => cases h with | cons _ h => simp [ih h]

theorem Spec.AlikeParams.values {l l' : List (Str × Str × Val)} (h : AlikeParams l l') : AlikeList (l.map fun p => p.2.2) (l'.map fun p => p.2.2) := by
  induction l generalizing l' with
  | nil => cases h; exact .nil
  | cons v l ih => cases h with | cons h1 h => exact .cons h1 (ih h)

/-- The members of alike maps under a key. -/
def AlikeOpt : Option Val → Option Val → Prop
  | none, none => True
  | some x, some x' => Alike x x'
  | _, _ => False

theorem mapGet_append {a b : List (Str × Val)} {k : Str} : mapGet (a ++ b) k = match mapGet a k with
    | some x => some x
    | none => mapGet b k := by
  induction a with
  | nil => rfl
  | cons p a ih =>
    obtain ⟨c, y⟩ := p
    rw [List.cons_append, mapGet, mapGet]
    split
    · rfl
    · exact ih

theorem Spec.AlikeMap.keys {m m' : List (Str × Val)} (h : AlikeMap m m') : (m.map Prod.fst).Perm (m'.map Prod.fst) := by
  induction m generalizing m' with
  | nil => cases h; exact .nil
  | cons p m ih =>
    cases h with
    | cons hv h hk =>
      have := ih h
      simp only [List.map_cons, List.map_append] at this ⊢
      exact (List.Perm.cons _ this).trans List.perm_middle.symm

theorem Spec.AlikeMap.nodup {m m' : List (Str × Val)} (h : AlikeMap m m') : (m.map Prod.fst).Nodup := by
  induction m generalizing m' with
  | nil => exact List.nodup_nil
  | cons p m ih => cases h with | cons hv h hk => exact List.nodup_cons.mpr ⟨hk, ih h⟩

theorem Spec.AlikeMap.get {m m' : List (Str × Val)} (h : AlikeMap m m') (k : Str) : AlikeOpt (mapGet m k) (mapGet m' k) := by
  induction m generalizing m' with
  | nil => cases h; trivial
  | cons p m ih =>
    cases h with
    | @cons c v v' _ a b hv h hk =>
      have hab : c ∉ (a ++ b).map Prod.fst := fun hc => hk (h.keys.mem_iff.mpr hc)
      have := ih h
      rw [mapGet, mapGet_append, mapGet]
      by_cases e : c = k
      · subst e
        rw [if_pos rfl, mapGet_absent (fun hc => hab (by simp only [List.map_append, List.mem_append]; exact .inl hc)), if_pos rfl]
        exact hv
      · rw [if_neg e, if_neg e]
        rw [mapGet_append] at this
        exact this

theorem Spec.AlikeMap.getD {m m' : List (Str × Val)} (h : AlikeMap m m') (k : Str) : Alike ((mapGet m k).getD .nil) ((mapGet m' k).getD .nil) := by
  have := h.get k
  cases e : mapGet m k with
  | none =>
    cases e' : mapGet m' k with
    | none => exact .same _
    | some y => rw [e, e'] at this; exact this.elim
  | some x =>
    cases e' : mapGet m' k with
    | none => rw [e, e'] at this; exact this.elim
    | some y => rw [e, e'] at this; exact this

theorem mapGet_of_mem {m : List (Str × Val)} (h : (m.map Prod.fst).Nodup) {k : Str} {x : Val} (hx : (k, x) ∈ m) : mapGet m k = some x := by
  induction m with
  | nil => cases hx
  | cons p m ih =>
    obtain ⟨c, y⟩ := p
    rw [List.map_cons, List.nodup_cons] at h
    rw [mapGet]
    rcases List.mem_cons.mp hx with e | hx
    · cases e
      exact if_pos rfl
    · have hc : c ≠ k := by
        rintro rfl
        exact h.1 (List.mem_map.mpr ⟨_, hx, rfl⟩)
      rw [if_neg hc, ih h.2 hx]

theorem findVariant_key {k : Str} : ∀ {tm : List (Str × Str)} {i : Nat}, k ∈ tm.map Prod.fst ↔ ∃ r, findVariant k i tm = some r
  | [], i => by simp [findVariant]
  | (n, t) :: tm, i => by
    rw [findVariant]
    by_cases e : n = k
    · simp [e]
    · rw [if_neg e, List.map_cons, List.mem_cons, findVariant_key (i := i + 1)]
      simp [Ne.symm e]

theorem findVariant_entry {k : Str} {r : Nat × Str} : ∀ {tm : List (Str × Str)} {i : Nat}, findVariant k i tm = some r → (k, r.2) ∈ tm
  | [], i, h => by cases h
  | (n, t) :: tm, i, h => by
    rw [findVariant] at h
    split at h
    · rename_i e
      cases h
      simp [e]
    · exact List.mem_cons_of_mem _ (findVariant_entry h)

theorem findEntry_some {tm : List (Str × Str)} {i : Nat} {t : Str} {x : Val} : ∀ {m : List (Str × Val)}, findEntry tm m = some (i, t, x) →
    ∃ k, (k, x) ∈ m ∧ findVariant k 0 tm = some (i, t)
  | [], h => by cases h
  | (k, y) :: m, h => by
    rw [findEntry] at h
    split at h
    · rename_i he
      cases h
      exact ⟨k, by simp, he⟩
    · obtain ⟨k', h, h'⟩ := findEntry_some h
      exact ⟨k', by simp [h], h'⟩

theorem findEntry_none' {tm : List (Str × Str)} : ∀ {m : List (Str × Val)}, findEntry tm m = none → ∀ k ∈ m.map Prod.fst, k ∉ tm.map Prod.fst
  | [], _, k, hk => by cases hk
  | (c, y) :: m, h, k, hk => by
    rw [findEntry] at h
    split at h
    · cases h
    · rename_i he
      rcases List.mem_cons.mp hk with rfl | hk
      · rw [findVariant_key (i := 0)]
        rintro ⟨r, hr⟩
        cases he.symm.trans hr
      · exact findEntry_none' h k hk

/-- In whatever order the map is walked, the same variant is taken. -/
theorem findEntry_alike {tm : List (Str × Str)} {m m' : List (Str × Val)} (h : AlikeMap m m')
    (hd : ∀ k ∈ m.map Prod.fst, ∀ k' ∈ m.map Prod.fst, k ∈ tm.map Prod.fst → k' ∈ tm.map Prod.fst → k = k') :
    (findEntry tm m = none ∧ findEntry tm m' = none) ∨
    ∃ k i t x x', findEntry tm m = some (i, t, x) ∧ findEntry tm m' = some (i, t, x') ∧ (k, x) ∈ m ∧ (k, t) ∈ tm ∧ Alike x x' := by
  have hm' : (m'.map Prod.fst).Nodup := h.keys.nodup_iff.mp h.nodup
  cases e : findEntry tm m with
  | none =>
    refine .inl ⟨rfl, ?_⟩
    cases e' : findEntry tm m' with
    | none => rfl
    | some r =>
      obtain ⟨i, t, x⟩ := r
      obtain ⟨k, hk, hv⟩ := findEntry_some e'
      exact absurd (findVariant_key.mpr ⟨_, hv⟩) (findEntry_none' e k (h.keys.mem_iff.mpr (List.mem_map_of_mem (f := Prod.fst) hk)))
  | some r =>
    obtain ⟨i, t, x⟩ := r
    obtain ⟨k, hk, hv⟩ := findEntry_some e
    have hkm := List.mem_map_of_mem (f := Prod.fst) hk
    refine .inr ⟨k, i, t, x, ?_⟩
    cases e' : findEntry tm m' with
    | none => exact absurd (findVariant_key.mpr ⟨_, hv⟩) (findEntry_none' e' k (h.keys.mem_iff.mp hkm))
    | some r' =>
      obtain ⟨i', t', x'⟩ := r'
      obtain ⟨k', hk', hv'⟩ := findEntry_some e'
      obtain rfl : k = k' := hd k hkm k' (h.keys.mem_iff.mpr (List.mem_map_of_mem (f := Prod.fst) hk')) (findVariant_key.mpr ⟨_, hv⟩) (findVariant_key.mpr ⟨_, hv'⟩)
      cases hv.symm.trans hv'
      have := h.get k
      rw [mapGet_of_mem h.nodup hk, mapGet_of_mem hm' hk'] at this
      exact ⟨x', rfl, rfl, hk, findVariant_entry hv, this⟩

/-! ## Encoding alike values -/

section
variable {ext : Ext} {rec : ERec} {ctx : ECtx}

theorem encList_alike {u : Str} {f : Str → Str} {l l' : List Val} (h : AlikeList l l') (hr : ∀ x ∈ l, ∀ x', Alike x x' → rec ctx u x = rec ctx u x') :
    encList rec ctx u f l = encList rec ctx u f l' := by
  induction l generalizing l' with
  | nil => cases h; rfl
  | cons v l ih =>
    cases h with
    | cons h1 h2 => rw [encList, encList, hr v (by simp) _ h1, ih h2 fun x hx => hr x (by simp [hx])]

theorem encFields_alike {m m' : List (Str × Val)} (h : AlikeMap m m') : ∀ fs : List (Str × Str),
    (∀ n u, (n, u) ∈ fs → ∀ x', Alike ((mapGet m n).getD .nil) x' → rec ctx u ((mapGet m n).getD .nil) = rec ctx u x') →
    encFields rec ctx m fs = encFields rec ctx m' fs
  | [], _ => rfl
  | (n, u) :: fs, hr => by
    rw [encFields, encFields, hr n u (by simp) _ (h.getD n), encFields_alike h fs fun n u hm => hr n u (by simp [hm])]

theorem encRows_alike {m m' : List (Str × Val)} (h : AlikeMap m m') : ∀ fs : List (List Str),
    (∀ n u r, (n :: u :: r) ∈ fs → ∀ x', Alike ((mapGet m n).getD .nil) x' → rec ctx u ((mapGet m n).getD .nil) = rec ctx u x') →
    encRows rec ctx m fs = encRows rec ctx m' fs
  | [], _ => rfl
  | (n :: u :: r) :: fs, hr => by
    rw [encRows, encRows, hr n u r (by simp) _ (h.getD n), encRows_alike h fs fun n u r hm => hr n u r (by simp [hm])]
  | [] :: _, _ => rfl
  | [_] :: _, _ => rfl

theorem encArgs_alike : ∀ (as : List (Str × Str)) {l l' : List Val}, AlikeList l l' →
    (∀ n u x, ((n, u), x) ∈ as.zip l → ∀ x', Alike x x' → rec ctx u x = rec ctx u x') → encArgs rec ctx as l = encArgs rec ctx as l'
  | [], _, _, _, _ => rfl
  | _ :: _, [], _, h, _ => by cases h; rfl
  | (n, t) :: as, v :: l, _, h, hr => by
    cases h with
    | cons h1 h2 => rw [encArgs, encArgs, hr n t v (by simp) _ h1, encArgs_alike as h2 fun n u x hx => hr n u x (by simp [hx])]

theorem elems_alike {v v' : Val} (h : Alike v v') : (v.elems? = none ∧ v'.elems? = none) ∨ ∃ l l', v.elems? = some l ∧ v'.elems? = some l' ∧ AlikeList l l' := by
  cases h with
  | same =>
    cases e : v.elems? with
    | none => exact .inl ⟨rfl, rfl⟩
    | some l => exact .inr ⟨l, l, rfl, rfl, .same l⟩
  | slice h => exact .inr ⟨_, _, rfl, rfl, h⟩
  | map h => exact .inl ⟨rfl, rfl⟩
  | params h => exact .inr ⟨_, _, rfl, rfl, h.values⟩
  | boxCall => exact .inl ⟨rfl, rfl⟩

/-- Alike values that are not the same are not texts. -/
theorem alike_cases {v v' : Val} (h : Alike v v') : v = v' ∨ ((∀ s, v ≠ .str s) ∧ ∀ s, v' ≠ .str s) := by
  cases h with
  | same => exact .inl rfl
  | _ => exact .inr ⟨(by simp), by simp⟩

theorem encodeVec_elems {u : Str} {v : Val} (h : ∀ s, v ≠ .str s) : encodeVec rec ctx u v = match v.elems? with
    | some l => do
      let a ← rec ECtx.none b!"Compact<u32>" (.int l.length)
      let b ← encList rec ctx u trimHex l
      .ok (a ++ b)
    | none => .panic := by
  unfold encodeVec
  split
  · exact absurd rfl (h _)
  · rfl

theorem encodeArray_elems {k : Int} {u : Str} {v : Val} (h : ∀ s, v ≠ .str s) : encodeFixedArray rec ctx k u v = match v.elems? with
    | some l => if (l.length : Int) ≠ k then .panic else encList rec ctx u id l
    | none => .panic := by
  unfold encodeFixedArray
  split
  · exact absurd rfl (h _)
  · rfl

theorem encodeVec_alike {u : Str} {v v' : Val} (h : Alike v v') (hr : ∀ l, v.elems? = some l → ∀ x ∈ l, ∀ x', Alike x x' → rec ctx u x = rec ctx u x') :
    encodeVec rec ctx u v = encodeVec rec ctx u v' := by
  rcases alike_cases h with rfl | ⟨h1, h2⟩
  · rfl
  rw [encodeVec_elems h1, encodeVec_elems h2]
  rcases elems_alike h with ⟨e, e'⟩ | ⟨l, l', e, e', hl⟩
  · rw [e, e']
  · rw [e, e']
    dsimp only
    rw [hl.length, encList_alike hl (hr l e)]

theorem encodeArray_alike {k : Int} {u : Str} {v v' : Val} (h : Alike v v')
    (hr : ∀ l, v.elems? = some l → ∀ x ∈ l, ∀ x', Alike x x' → rec ctx u x = rec ctx u x') :
    encodeFixedArray rec ctx k u v = encodeFixedArray rec ctx k u v' := by
  rcases alike_cases h with rfl | ⟨h1, h2⟩
  · rfl
  rw [encodeArray_elems h1, encodeArray_elems h2]
  rcases elems_alike h with ⟨e, e'⟩ | ⟨l, l', e, e', hl⟩
  · rw [e, e']
  · rw [e, e']
    dsimp only
    rw [hl.length, encList_alike hl (hr l e)]

theorem encodeOption_alike {u : Str} {v v' : Val} (h : Alike v v') (hr : rec ctx u v = rec ctx u v') :
    encodeOption rec ctx u v = encodeOption rec ctx u v' := by
  cases h with
  | same => rfl
  | slice | map | boxCall =>
    unfold encodeOption
    dsimp only [Val.isNil]
    rw [hr]
    rfl
  | params h =>
    cases h with
    | nil => rfl
    | cons h1 h2 =>
      unfold encodeOption
      dsimp only [Val.isNil]
      rw [hr]
      rfl

theorem toStr_alike (hj : SortedJson ext) {v v' : Val} (h : Alike v v') : ext.toStr v = ext.toStr v' := by
  have := hj.json v v' h
  cases h with
  | same => rfl
  | _ => exact this

theorem encodeEnum_alike (hj : SortedJson ext) {s : Str} {vs : List Str} {tm : Option (List (Str × Str))} {v v' : Val} (h : Alike v v') (hd : Decided (.enum vs tm) v)
    (hr : ∀ u x, EncStep ext ctx.md (.enum vs tm) s v u x → ∀ x', Alike x x' → rec ctx u x = rec ctx u x') :
    encodeEnum ext rec ctx vs tm v = encodeEnum ext rec ctx vs tm v' := by
  have hs := toStr_alike hj h
  cases tm with
  | none =>
    unfold encodeEnum
    rw [hs]
  | some tm =>
    cases h with
    | same => rfl
    | slice | params | boxCall => simp only [encodeEnum, hs]
    | @map m m' hm =>
      simp only [encodeEnum, hs]
      rcases findEntry_alike hm hd with ⟨e, e'⟩ | ⟨k, i, t, x, x', e, e', hx, ht, ha⟩
      · rw [e, e']
      · rw [e, e']
        dsimp only
        cases hv : variantRows ext t with
        | none =>
          dsimp only
          rw [hr t x (.variant rfl ht hx hv) x' ha]
        | some rows =>
          dsimp only
          cases ha with
          | same => rfl
          | slice | params | boxCall => rfl
          | map hvm =>
            simp only [asMap, Res.ok_bind]
            rw [encRows_alike hvm rows fun n u r hrow => hr u _ (.variantField rfl ht hx hv hrow)]

theorem encodeData_alike {v v' : Val} (h : Alike v v') (hd : Decided .data v) : encodeData rec v = encodeData rec v' := by
  cases h with
  | same => rfl
  | slice | params | boxCall => rfl
  | @map m m' hm =>
    cases hm with
    | nil => rfl
    | @cons k x x' m a b ha hm hk =>
      simp only [Decided, List.length_cons] at hd
      obtain rfl : m = [] := List.eq_nil_of_length_eq_zero (by omega)
      generalize hab : a ++ b = c at hm
      cases hm
      obtain ⟨rfl, rfl⟩ := List.append_eq_nil_iff.mp hab
      cases ha with
      | same => rfl
      | _ => rfl

theorem encodeResult_alike {u : Str} {v v' : Val} (h : Alike v v')
    (ho : ∀ a e m x, splitSep u b!"," = [a, e] → v = .map m → (b!"Ok", x) ∈ m → ∀ x', Alike x x' → rec ctx a x = rec ctx a x')
    (he : ∀ a e m x, splitSep u b!"," = [a, e] → v = .map m → (b!"Error", x) ∈ m → ∀ x', Alike x x' → rec ctx e x = rec ctx e x') :
    encodeResult rec ctx u v = encodeResult rec ctx u v' := by
  cases h with
  | same => rfl
  | slice | params | boxCall => rfl
  | @map m m' hm =>
    unfold encodeResult
    simp only [asMap, Res.ok_bind]
    split
    · rename_i a e hs
      have h1 := hm.get b!"Ok"
      have h2 := hm.get b!"Error"
      revert h1 h2
      cases e1 : mapGet m b!"Ok" with
      | some x =>
        cases mapGet m' b!"Ok" with
        | none => exact fun h1 => h1.elim
        | some x' =>
          intro h1 _
          dsimp only
          rw [ho a e m x hs rfl (mapGet_mem' e1) x' h1]
      | none =>
        cases mapGet m' b!"Ok" with
        | some x' => exact fun h1 => h1.elim
        | none =>
          intro _
          dsimp only
          cases e2 : mapGet m b!"Error" with
          | some x =>
            cases mapGet m' b!"Error" with
            | none => exact fun h1 => h1.elim
            | some x' =>
              intro h1
              dsimp only
              rw [he a e m x hs rfl (mapGet_mem' e2) x' h1]
          | none =>
            cases mapGet m' b!"Error" with
            | none => exact fun _ => rfl
            | some x' => exact fun h1 => h1.elim
    · rfl

theorem boxCall_alike (hj : SortedJson ext) {v v' : Val} (h : Alike v v') : (boxCallOf ext v = .panic ∧ boxCallOf ext v' = .panic) ∨
    ∃ i ps ps' as as', boxCallOf ext v = .ok (i, ps, as) ∧ boxCallOf ext v' = .ok (i, ps', as') ∧ AlikeList ps ps' ∧ AlikeList as as' := by
  have same : ∀ w : Val, (boxCallOf ext w = .panic ∧ boxCallOf ext w = .panic) ∨
    ∃ i ps ps' as as', boxCallOf ext w = .ok (i, ps, as) ∧ boxCallOf ext w = .ok (i, ps', as') ∧ AlikeList ps ps' ∧ AlikeList as as' := by
    intro w
    unfold boxCallOf
    split
    · exact .inr ⟨_, _, _, _, _, rfl, rfl, .same _, .same _⟩
    · split
      · exact .inr ⟨_, _, _, _, _, rfl, rfl, .same _, .same _⟩
      · exact .inl ⟨rfl, rfl⟩
    · exact .inl ⟨rfl, rfl⟩
  cases h with
  | same => exact same _
  | slice | params => exact .inl ⟨rfl, rfl⟩
  | boxCall h1 h2 => exact .inr ⟨_, _, _, _, _, rfl, rfl, h1, h2⟩
  | @map m m' hm =>
    have : boxCallOf ext (.map m) = boxCallOf ext (.map m') := by
      simp only [boxCallOf, hj.boxCall m m' hm]
    rw [← this]
    exact same _

theorem encodeCall_alike (hj : SortedJson ext) {v v' : Val} (h : Alike v v')
    (hr : ∀ d i ps as e, ctx.md = some d → boxCallOf ext v = .ok (i, ps, as) → d.callIndex (trimHex i) = some e → ∀ n u x,
      ((n, u), x) ∈ e.args.zip (if as.isEmpty then ps else as) → ∀ x', Alike x x' → rec ctx u x = rec ctx u x') :
    encodeCall ext rec ctx v = encodeCall ext rec ctx v' := by
  unfold encodeCall
  split
  · rfl
  rename_i md hmd
  rcases boxCall_alike hj h with ⟨e, e'⟩ | ⟨i, ps, ps', as, as', e, e', h1, h2⟩
  · rw [e, e']
  · rw [e, e']
    simp only [Res.ok_bind]
    split
    · rfl
    · rename_i c hc
      have : AlikeList (if as.isEmpty then ps else as) (if as'.isEmpty then ps' else as') := by
        cases h2 with
        | nil => exact h1
        | cons h3 h4 => exact .cons h3 h4
      rw [encArgs_alike c.args this (hr md i ps as c hmd e hc)]

theorem logDigest_step {md : Option MD} {cls : Cls} {vs : List Str} {s u : Str} {v x : Val} (h : EncStep ext md cls s v u x) (hc : cls = .enum vs none) : False := by
  subst hc
  cases h <;> simp_all

theorem encodeCls_alike (hj : SortedJson ext) {cls : Cls} {s : Str} {v v' : Val} (h : Alike v v') (hd : Decided cls v)
    (hr : ∀ u x, EncStep ext ctx.md cls s v u x → ∀ x', Alike x x' → rec ctx u x = rec ctx u x') :
    encodeCls ext rec ctx cls s v = encodeCls ext rec ctx cls s v' := by
  cases cls with
  | option t => exact encodeOption_alike h (hr _ v (.option rfl) v' h)
  | struct tm =>
    cases h with
    | same => rfl
    | slice | params | boxCall => rfl
    | @map m m' hm =>
      simp only [encodeCls, encodeStruct, asMap, Res.ok_bind]
      refine encFields_alike hm _ fun n u hn => ?_
      cases tm with
      | none => cases hn
      | some tm => exact hr u _ (.field rfl hn)
  | enum vs tm => exact encodeEnum_alike hj h hd hr
  | logDigest => exact encodeEnum_alike (ctx := ctx) (rec := rec) (s := s) (tm := none) hj h trivial fun u x hx => (logDigest_step hx rfl).elim
  | vec t => exact encodeVec_alike h fun l hl x hx => hr _ x (.vec rfl hl hx)
  | boundedVec t => exact encodeVec_alike h fun l hl x hx => hr _ x (.boundedVec rfl hl hx)
  | authoritiesChange => exact encodeVec_alike h fun l hl x hx => hr _ x (.authorities rfl hl hx)
  | fixedArray k t => exact encodeArray_alike h fun l hl x hx => hr _ x (.array rfl hl hx)
  | call => exact encodeCall_alike hj h fun d i ps as e hmd hb he n u x hx => hr u x (.arg rfl hmd hb he hx)
  | data => exact encodeData_alike h hd
  | result t =>
    refine encodeResult_alike h ?_ ?_
    · rintro a e m x hs rfl hx
      exact hr a x (.ok rfl hs hx)
    · rintro a e m x hs rfl hx
      exact hr e x (.error rfl hs hx)
  | intFixed k =>
    cases h with
    | same => rfl
    | _ => rfl
  | _ =>
    cases h with
    | same => rfl
    | _ => rfl

end

theorem argOf_alike {v v' : Val} (h : Alike v v') : Alike (argOf v) (argOf v') := by
  cases h with
  | same => exact .same _
  | slice h => exact .slice h
  | map h => exact .map h
  | params h => exact .params h
  | boxCall h1 h2 => exact .boxCall h1 h2

theorem argOf_decided {cls : Cls} {v : Val} (h : Decided cls v) : Decided cls (argOf v) := by
  cases v with
  | nil => unfold Decided; split <;> first | (rename_i e; cases e) | trivial
  | _ => exact h

theorem enc_alike {env : Env} (hj : SortedJson env.ext) {ctx : ECtx} : ∀ (n : Nat) {t : Str} {v v' : Val}, Alike v v' → Definite env ctx t v →
    enc env n ctx t v = enc env n ctx t v'
  | 0, _, _, _, _, _ => rfl
  | n + 1, t, v, v', h, hd => by
    rw [enc, enc]
    split
    · rfl
    cases hc : getCodecClass env [] ctx.spec t with
    | diverge => rfl
    | panic => rfl
    | ok r =>
      simp only [Res.ok_bind]
      cases r with
      | none => rfl
      | some p =>
        obtain ⟨cls, s⟩ := p
        dsimp only
        rw [encodeCls_alike hj (argOf_alike h) (argOf_decided (hd t v (.here t v) cls s hc)) fun u x hx x' hxx =>
          enc_alike hj n hxx fun w y hw => hd w y (.next hc hx hw)]

/-! ## The properties -/

/-- The full property: the encoding of a value does not depend on the order in which its maps are walked. -/
def C127Claim : Prop := ∀ (ext : Ext), SortedJson ext → ∀ (fuel : Nat) (l : List (Str × TypeDef)) (rs : RegState),
  regCustomTypes fuel ⟨baseEnv ext, fun _ => none⟩ l = .ok rs → ∀ (ctx : ECtx) (t : Str) (v v' : Val), Alike v v' →
  ∀ n, enc rs.env n ctx t v = enc rs.env n ctx t v'

/-- C127, as far as it holds: if no map that is encoded as an enum names two variants, and none that is encoded as identity data has two
members, the outcome (the text, or the panic) does not depend on the order in which maps are walked. Members that name no variant, and the
order of struct members, are without effect. -/
theorem C127_partial (env : Env) (hj : SortedJson env.ext) (ctx : ECtx) (t : Str) (v v' : Val) (h : Alike v v') (hd : Definite env ctx t v) (n : Nat) :
    enc env n ctx t v = enc env n ctx t v' := enc_alike hj n h hd

theorem lower_byte_head (b : UInt8) (r : Str) : trimHex (toLower (bytesToHex [b] ++ r)) = bytesToHex [b] ++ toLower r := by
  have h : ∀ b : UInt8, (bytesToHex [b]).map lowerByte = bytesToHex [b] ∧ (bytesToHex [b])[1]? ≠ some 120 ∧ (bytesToHex [b]).length = 2 :=
    forall_byte (P := fun b => (bytesToHex [b]).map lowerByte = bytesToHex [b] ∧ (bytesToHex [b])[1]? ≠ some 120 ∧ (bytesToHex [b]).length = 2)
      (by decide +kernel)
  obtain ⟨h1, h2, h3⟩ := h b
  generalize bytesToHex [b] = w at h1 h2 h3
  match w, h3 with
  | [p, q], _ =>
    simp only [List.map_cons, List.map_nil, List.cons.injEq, and_true] at h1
    have h4 : q ≠ 120 := fun e => h2 (by rw [e]; rfl)
    simp [toLower, h1.1, h1.2, trimHex, trimPrefix, hasPrefix, List.isPrefixOf, h4.symm]

theorem byte_hex_inj {a b : UInt8} {r r' : Str} (h : bytesToHex [a] ++ r = bytesToHex [b] ++ r') : a = b := by
  have hl : ∀ b : UInt8, (bytesToHex [b]).length = 2 := forall_byte (P := fun b => (bytesToHex [b]).length = 2) (by decide +kernel)
  have h := (List.append_inj h ((hl a).trans (hl b).symm)).1
  have hi : ∀ b : UInt8, hexToBytes (bytesToHex [b]) = [b] := forall_byte (P := fun b => hexToBytes (bytesToHex [b]) = [b]) (by decide +kernel)
  have := congrArg hexToBytes h
  rw [hi, hi] at this
  exact List.head_eq_of_cons_eq this

/-- A map that begins with the member `k` is encoded as the variant `k` of an enum that is more than its names. -/
theorem enc_variant_first {env : Env} {ctx : ECtx} {t s : Str} {vs : List Str} {tm : List (Str × Str)} (hr : EncResolves env ctx t (.enum vs (some tm)) s)
    (hc : isCLike tm = false) (hd : (tm.map Prod.fst).Nodup) {i : Nat} {k u : Str} (hi : tm[i]? = some (k, u)) (hu : variantRows env.ext u = none)
    (hb : i < 256) (x : Val) (m : List (Str × Val)) (n : Nat) :
    enc env (n + 1) ctx t (.map ((k, x) :: m)) = enc env n ctx u x >>= fun r => .ok (bytesToHex [UInt8.ofNat i] ++ toLower r) := by
  rw [enc_resolves n _ hr]
  simp only [argOf, encodeCls, encodeEnum, hc, Bool.false_eq_true, if_false, findEntry, findVariant_at 0 i hd hi, hu, Nat.zero_add]
  cases enc env n ctx u x with
  | ok r => simp only [Res.ok_bind, u8Encode_nat hb, lower_byte_head]
  | panic => rfl
  | diverge => rfl

/-- The condition on enums is needed: a map that names two variants of an enum is encoded as the one that is met first, and the two
encodings differ. -/
theorem C127_two_variants (env : Env) (ctx : ECtx) (t s : Str) (vs : List Str) (tm : List (Str × Str)) (hr : EncResolves env ctx t (.enum vs (some tm)) s)
    (hc : isCLike tm = false) (hd : (tm.map Prod.fst).Nodup) (i j : Nat) (k k' u u' : Str) (hi : tm[i]? = some (k, u)) (hj : tm[j]? = some (k', u'))
    (hij : i ≠ j) (hb : i < 256) (hb' : j < 256) (hu : variantRows env.ext u = none) (hu' : variantRows env.ext u' = none) (x x' : Val) (n : Nat) (r : Str)
    (he : enc env n ctx u x = .ok r) :
    Alike (.map [(k, x), (k', x')]) (.map [(k', x'), (k, x)]) ∧
      enc env (n + 1) ctx t (.map [(k, x), (k', x')]) ≠ enc env (n + 1) ctx t (.map [(k', x'), (k, x)]) := by
  have hk : k ≠ k' := by
    rintro rfl
    exact hij (first_of_nodup hd hj i u hi)
  refine ⟨.map (.cons (a := [(k', x')]) (b := []) (.same _) (.cons (a := []) (b := []) (.same _) .nil (by simp)) (by simpa using hk)), ?_⟩
  rw [enc_variant_first hr hc hd hi hu hb, enc_variant_first hr hc hd hj hu' hb', he, Res.ok_bind]
  intro h
  obtain ⟨r', _, h⟩ := Res.bind_eq_ok.mp h.symm
  have := congrArg UInt8.toNat (byte_hex_inj (Res.ok.inj h))
  rw [UInt8.toNat_ofNat', UInt8.toNat_ofNat'] at this
  omega

/-- Identity data is encoded as the member that is met first, whatever else the map holds. -/
theorem C127_data_first (env : Env) (ctx : ECtx) (t s : Str) (hr : EncResolves env ctx t .data s) (p : Str × Val) (m : List (Str × Val)) (n : Nat) :
    enc env n ctx t (.map (p :: m)) = enc env n ctx t (.map [p]) := by
  cases n with
  | zero => rfl
  | succ n => rw [enc_resolves n _ hr, enc_resolves n _ hr]; rfl

/-- How to see that an encoding is definite: at each type in turn. -/
theorem definite_of {env : Env} {ctx : ECtx} {t s : Str} {cls : Cls} {v : Val} (hr : Resolves env [] ctx.spec t cls s) (hd : Decided cls v)
    (hx : ∀ u x, EncStep env.ext ctx.md cls s (argOf v) u x → Definite env ctx u x) : Definite env ctx t v := by
  intro w y hv cls' s' hr'
  cases hv with
  | here =>
    cases hr.symm.trans hr'
    exact hd
  | next h1 h2 h3 =>
    cases hr.symm.trans h1
    exact hx _ _ h2 w y h3 cls' s' hr'

/-! ## Decoded values -/

/-- Values without maps in them. -/
def Mapless : Val → Prop
  | .slice _ | .map _ | .params _ | .boxCall _ _ _ => False
  | _ => True

theorem mapless_decided {v : Val} (h : Mapless v) (cls : Cls) : Decided cls v := by
  unfold Decided
  split
  · exact h.elim
  · exact h.elim
  · trivial

theorem mapless_elems {v : Val} (h : Mapless v) {l : List Val} (hl : v.elems? = some l) : ∀ x ∈ l, Mapless x := by
  intro x hx
  cases v with
  | bytes s =>
    cases hl
    obtain ⟨b, _, rfl⟩ := List.mem_map.mp hx
    trivial
  | strs l' =>
    cases hl
    obtain ⟨b, _, rfl⟩ := List.mem_map.mp hx
    trivial
  | nilSlice => cases hl; cases hx
  | slice | params => exact h.elim
  | _ => cases hl

theorem mapless_step {ext : Ext} {md : Option MD} {cls : Cls} {s u : Str} {v x : Val} (hf : Mapless v) (h : EncStep ext md cls s v u x) : Mapless x := by
  cases h with
  | option => exact hf
  | vec _ hl hx => exact mapless_elems hf hl x hx
  | boundedVec _ hl hx => exact mapless_elems hf hl x hx
  | authorities _ hl hx => exact mapless_elems hf hl x hx
  | array _ hl hx => exact mapless_elems hf hl x hx
  | arg _ _ hb =>
    cases v with
    | map | boxCall => exact hf.elim
    | _ => cases hb
  | _ => exact hf.elim

/-- Values without maps are encoded alike anyway, by whatever text. -/
theorem mapless_definite {env : Env} {ctx : ECtx} {t : Str} {v : Val} (hf : Mapless v) : Definite env ctx t v := by
  intro u x h
  induction h with
  | here t v => exact fun cls s _ => mapless_decided hf cls
  | @next t u w s v x y cls h1 h2 _ ih =>
    refine ih (mapless_step ?_ h2)
    cases v with
    | nil => trivial
    | _ => exact hf

theorem loose_mapless {sh : _root_.Spec.Shape Str} {r : Val} {b : Str} (h : _root_.Spec.Loose sh r b) : Mapless r := by
  cases sh with
  | uint w =>
    rw [h.2]
    unfold uintValue
    split <;> trivial
  | u128 =>
    obtain ⟨_, _, _, rfl⟩ := h
    trivial
  | bool =>
    obtain ⟨_, _, rfl⟩ := h
    trivial
  | bytes _ =>
    obtain ⟨_, _, _, _, rfl, _⟩ := h
    trivial
  | bitVec =>
    obtain ⟨_, _, _, _, _, rfl, _⟩ := h
    trivial
  | names cs =>
    obtain ⟨_, _, ⟨_, _, rfl⟩ | ⟨_, rfl⟩⟩ := h <;> trivial
  | optionBool =>
    obtain ⟨_, _, rfl⟩ := h
    split <;> trivial
  | compact bound dec =>
    obtain ⟨_, rfl | ⟨_, _, rfl⟩⟩ := h
    · split <;> trivial
    · trivial
  | null | unit => rw [h.1]; trivial
  | u256 | int _ | hash _ | account | balance | era | byteArray _ | compact32 => rw [h.2]; trivial
  | _ => exact h.elim

section
variable {ext : Ext} {md : Option MD} {s u : Str} {v x : Val}

theorem step_vec {cls : Cls} {el : Str} (h : EncStep ext md cls s v u x) (hv : vecElem cls s = some el) : u = el ∧ ∃ l, v.elems? = some l ∧ x ∈ l := by
  cases h with
  | vec hc h1 h2 => subst hc; cases hv; exact ⟨rfl, _, h1, h2⟩
  | boundedVec hc h1 h2 => subst hc; cases hv; exact ⟨rfl, _, h1, h2⟩
  | authorities hc h1 h2 => subst hc; cases hv; exact ⟨rfl, _, h1, h2⟩
  | option hc | array hc | field hc | variant hc | variantField hc | ok hc | error hc | arg hc => subst hc; cases hv

theorem step_option {t : Str} (h : EncStep ext md (.option t) s v u x) : u = effSub t s ∧ x = v := by
  cases h with
  | option hc => cases hc; exact ⟨rfl, rfl⟩
  | _ => contradiction

theorem step_array {n : Int} {t : Str} (h : EncStep ext md (.fixedArray n t) s v u x) : u = t ∧ ∃ l, v.elems? = some l ∧ x ∈ l := by
  cases h with
  | array hc h1 h2 => cases hc; exact ⟨rfl, _, h1, h2⟩
  | _ => contradiction

theorem step_struct {tm : Option (List (Str × Str))} {m : List (Str × Val)} (h : EncStep ext md (.struct tm) s (.map m) u x) :
    ∃ n, (n, u) ∈ tm.getD [] ∧ x = (mapGet m n).getD .nil := by
  cases h with
  | field hc h1 => cases hc; exact ⟨_, h1, rfl⟩
  | _ => contradiction

theorem step_enum {vs : List Str} {tm : List (Str × Str)} {m : List (Str × Val)} (h : EncStep ext md (.enum vs (some tm)) s (.map m) u x) :
    ∃ k w y, (k, w) ∈ tm ∧ (k, y) ∈ m ∧ ((variantRows ext w = none ∧ u = w ∧ x = y) ∨
      ∃ vm rows n r, y = .map vm ∧ variantRows ext w = some rows ∧ (n :: u :: r) ∈ rows ∧ x = (mapGet vm n).getD .nil) := by
  cases h with
  | variant hc h1 h2 h3 => cases hc; exact ⟨_, _, _, h1, h2, .inl ⟨h3, rfl, rfl⟩⟩
  | variantField hc h1 h2 h3 h4 => cases hc; exact ⟨_, _, _, h1, h2, .inr ⟨_, _, _, _, rfl, h3, h4, rfl⟩⟩
  | _ => contradiction

theorem step_result {t : Str} {m : List (Str × Val)} (h : EncStep ext md (.result t) s (.map m) u x) :
    ∃ a e, splitSep (effSub t s) b!"," = [a, e] ∧ ((u = a ∧ (b!"Ok", x) ∈ m) ∨ (u = e ∧ (b!"Error", x) ∈ m)) := by
  cases h with
  | ok hc h1 h2 => cases hc; exact ⟨_, _, h1, .inl ⟨rfl, h2⟩⟩
  | error hc h1 h2 => cases hc; exact ⟨_, _, h1, .inr ⟨rfl, h2⟩⟩
  | _ => contradiction

end

open _root_.Spec (Part fieldOutputs fieldTypes) in
theorem field_type {ps : List (Part Str)} (hd : ((fieldTypes ps).map Prod.fst).Nodup) {n u : Str} (h : (n, u) ∈ fieldTypes ps) :
    ∃ p ∈ ps, p.ty = u ∧ (mapGet (fieldOutputs ps) n).getD .nil = p.out := by
  obtain ⟨p, hp, e⟩ := List.mem_map.mp h
  cases e
  refine ⟨p, hp, rfl, ?_⟩
  have : mapGet (fieldOutputs ps) p.name = some p.out := by
    refine mapGet_of_mem ?_ (List.mem_map.mpr ⟨p, hp, rfl⟩)
    have e : (fieldOutputs ps).map Prod.fst = (fieldTypes ps).map Prod.fst := by simp [fieldOutputs, fieldTypes]
    rw [e]
    exact hd
  rw [this]
  rfl

open _root_.Spec (Shape Part Accepts Whole outputs fieldOutputs fieldTypes listValue) in
theorem accepted_definite {env : Env} {ctx : Ctx} {ectx : ECtx} {shape : Str → Shape Str → Prop} {ok : Shape Str → Val → Str → Prop}
    (hs : Describes env ctx ectx shape) (hw : Whole shape) {ty : Str} {r : Val} {b : Str} (h : Accepts shape ok ty r b) : Definite env ectx ty r := by
  induction h with
  | leaf _ hl _ => exact mapless_definite (loose_mapless hl)
  | none | emptyArray => exact mapless_definite trivial
  | @seq ty el c ps hsh _ _ _ _ _ ih =>
    obtain ⟨cls, s, s', hD, hE, hv, hv'⟩ | ⟨h, _⟩ := hs _ _ hsh
    swap
    · cases h
    cases ps with
    | nil => exact mapless_definite trivial
    | cons p ps =>
      refine definite_of hE.1 ?_ fun u x hx => ?_
      · cases cls <;> trivial
      · obtain ⟨rfl, l, hl, hx⟩ := step_vec hx hv'
        cases hl
        obtain ⟨q, hq, rfl⟩ := List.mem_map.mp hx
        exact ih q hq
  | @some ty el r b x hsh hx _ _ ih =>
    obtain ⟨cls, s, s', hD, hE, hne, hnb, t, rfl, e1, e2⟩ | ⟨h, _⟩ := hs _ _ hsh
    swap
    · cases h
    refine definite_of hE.1 trivial fun u x hx => ?_
    obtain ⟨rfl, rfl⟩ := step_option hx
    rw [e2]
    cases r with
    | nil => exact mapless_definite trivial
    | _ => exact ih
  | @struct ty ps hsh _ ih =>
    have hT : ((fieldTypes ps).map Prod.fst).Nodup := (hw _ _ hsh).2
    obtain ⟨cls, s, s', hD, hE, hc⟩ | ⟨h, _⟩ := hs _ _ hsh
    swap
    · cases h
    obtain ⟨tm, rfl, htm⟩ : ∃ tm, cls = .struct tm ∧ tm.getD [] = fieldTypes ps := by
      rcases hc with rfl | ⟨h, rfl⟩
      · exact ⟨_, rfl, rfl⟩
      · exact ⟨_, rfl, h.symm⟩
    refine definite_of hE.1 trivial fun u x hx => ?_
    obtain ⟨n, hn, rfl⟩ := step_struct hx
    rw [htm] at hn
    obtain ⟨p, hp, rfl, e⟩ := field_type hT hn
    rw [e]
    exact ih p hp
  | @variant ty vs t r b x name hsh hi _ ih =>
    obtain ⟨cls, s, s', hD, hE, vl, tm, rfl, hnc, hf⟩ | ⟨h, _⟩ := hs _ _ hsh
    swap
    · cases h
    obtain ⟨hi256, w, hti, hu, rfl, hne, hrows⟩ := hf _ hi
    refine definite_of hE.1 (by unfold Decided; simp) fun u x hx => ?_
    obtain ⟨k, w', y, h1, h2, h3⟩ := step_enum hx
    simp only [List.mem_singleton, Prod.mk.injEq] at h2
    obtain ⟨rfl, rfl⟩ := h2
    obtain ⟨j, hj⟩ := List.getElem?_of_mem h1
    obtain rfl := hu j w' hj
    cases hti.symm.trans hj
    rcases h3 with ⟨_, rfl, rfl⟩ | ⟨_, _, _, _, _, h3, _⟩
    · exact ih
    · rw [variantRows_none env.ext hrows] at h3
      cases h3
  | @fields ty vs x name ps hsh hi _ ih =>
    have hT : ((fieldTypes ps).map Prod.fst).Nodup := (hw _ _ hsh).2 _ hi _ rfl
    obtain ⟨cls, s, s', hD, hE, vl, tm, rfl, hnc, hf⟩ | ⟨h, _⟩ := hs _ _ hsh
    swap
    · cases h
    obtain ⟨hi256, t', hti, hu, hrows, hlen, hne, hr⟩ := hf _ hi
    refine definite_of hE.1 (by unfold Decided; simp) fun u x hx => ?_
    obtain ⟨k, w', y, h1, h2, h3⟩ := step_enum hx
    simp only [List.mem_singleton, Prod.mk.injEq] at h2
    obtain ⟨rfl, rfl⟩ := h2
    obtain ⟨j, hj⟩ := List.getElem?_of_mem h1
    obtain rfl := hu j w' hj
    cases hti.symm.trans hj
    have hv : variantRows env.ext t' = some ((fieldTypes ps).map fun f => [f.1, f.2]) := by
      obtain ⟨r, rfl⟩ := hrows
      unfold variantRows
      rw [if_pos ⟨hlen, by simp [hasPrefix, List.isPrefixOf]⟩, hr]
      cases hps : fieldTypes ps with
      | nil => exact absurd hps hne
      | cons p ps => rfl
    rcases h3 with ⟨h3, _⟩ | ⟨vm, rows, n, r, h4, h5, h6, rfl⟩
    · cases h3.symm.trans hv
    · cases h4
      cases h5.symm.trans hv
      obtain ⟨f, hf, e⟩ := List.mem_map.mp h6
      cases e
      obtain ⟨p, hp, e1, e⟩ := field_type hT (n := f.1) (u := f.2) hf
      rw [e, ← e1]
      exact ih p hp
  | @array ty n el ps hsh h0 hlen _ ih =>
    obtain ⟨cls, s, s', hD, hE, rfl, hel⟩ | ⟨h, _⟩ := hs _ _ hsh
    swap
    · cases h
    refine definite_of hE.1 trivial fun u x hx => ?_
    obtain ⟨rfl, l, hl, hx⟩ := step_array hx
    cases hl
    obtain ⟨q, hq, rfl⟩ := List.mem_map.mp hx
    exact ih q hq
  | @resultOk ty a e r b hsh _ ih =>
    obtain ⟨ha, he⟩ : (44 : UInt8) ∉ a ∧ (44 : UInt8) ∉ e := (hw _ _ hsh).2
    obtain ⟨cls, s, s', hD, hE, t, rfl, e1, e2⟩ | ⟨h, _⟩ := hs _ _ hsh
    swap
    · cases h
    refine definite_of hE.1 trivial fun u x hx => ?_
    obtain ⟨a', e', h1, h2⟩ := step_result hx
    rw [e2, splitSep_pair a e ha he] at h1
    cases h1
    simp only [List.mem_singleton, Prod.mk.injEq] at h2
    rcases h2 with ⟨rfl, h2, rfl⟩ | ⟨rfl, h2, rfl⟩
    · exact ih
    · exact absurd h2 (by decide)
  | @resultErr ty a e r b hsh _ ih =>
    obtain ⟨ha, he⟩ : (44 : UInt8) ∉ a ∧ (44 : UInt8) ∉ e := (hw _ _ hsh).2
    obtain ⟨cls, s, s', hD, hE, t, rfl, e1, e2⟩ | ⟨h, _⟩ := hs _ _ hsh
    swap
    · cases h
    refine definite_of hE.1 trivial fun u x hx => ?_
    obtain ⟨a', e', h1, h2⟩ := step_result hx
    rw [e2, splitSep_pair a e ha he] at h1
    cases h1
    simp only [List.mem_singleton, Prod.mk.injEq] at h2
    rcases h2 with ⟨rfl, h2, rfl⟩ | ⟨rfl, h2, rfl⟩
    · exact absurd h2 (by decide)
    · exact ih

open _root_.Spec (Shape Whole) in
/-- What the decoder gives names one variant in each place, so it is encoded alike in whatever order its maps are walked. -/
theorem C127_decoded (env : Env) (ctx : Ctx) (ectx : ECtx) (shape : Str → Shape Str → Prop) (hL : LenOK env ctx) (hs : Describes env ctx ectx shape)
    (hw : Whole shape) (hli : AllListed env ctx shape) (hj : SortedJson env.ext) (ty : Str) (sh : Shape Str) (st : St) (b : Str) (r r' : Val)
    (hsh : shape ty sh) (hst : SaneAt st) (h : Leaves env ctx ty st b r) (ha : Alike r r') (n : Nat) : enc env n ectx ty r = enc env n ectx ty r' :=
  C127_partial env hj ectx ty r r' ha (accepted_definite hs hw (C116_accepted env ctx ectx shape hL hs hw hli ty sh st b r hsh hst h)) n

open _root_.Spec (Shape Whole) in
/-- With `C117_partial`: in whatever order the maps of a decoded value are walked, it is encoded to the bytes it came from. -/
theorem C127_decoded_bytes (env : Env) (ctx : Ctx) (ectx : ECtx) (shape : Str → Shape Str → Prop) (hL : LenOK env ctx) (hL' : LenEncOK env)
    (hs : Describes env ctx ectx shape) (hw : Whole shape) (hli : AllListed env ctx shape) (hf : ∀ ty sh, shape ty sh → Steady sh) (hj : SortedJson env.ext)
    (ty : Str) (sh : Shape Str) (st : St) (b : Str) (r r' : Val) (hsh : shape ty sh) (hst : SaneAt st) (h : Leaves env ctx ty st b r) (ha : Alike r r') :
    Encodes env ectx ty r' b := by
  obtain ⟨N, hN⟩ := C117_partial env ctx ectx shape hL hL' hs hw hli hf ty sh st b r hsh hst h
  exact ⟨N, fun n hn => (C127_decoded env ctx ectx shape hL hs hw hli hj ty sh st b r r' hsh hst h ha n).symm.trans (hN n hn)⟩

/-! ## Examples -/

/-- The registry after registering an enum of two kinds of numbers. -/
def orderReg (ext : Ext) : Res RegState :=
  regCustomTypes 9 ⟨baseEnv ext, fun _ => none⟩
    [(b!"Amount", { kind := b!"enum", mapping := [[b!"Small", b!"u8"], [b!"Large", b!"u16"]] }),
      (b!"Pay", { kind := b!"struct", mapping := [[b!"fee", b!"Amount"], [b!"id", b!"u8"]] })]

/-- The classes of the two types. -/
def orderClasses (ext : Ext) : Res (Option (Cls × Str) × Option (Cls × Str)) := do
  let rs ← orderReg ext
  let a ← getCodecClass rs.env [] 0 b!"Amount"
  let b ← getCodecClass rs.env [] 0 b!"Pay"
  .ok (a, b)

theorem order_classes (ext : Ext) : orderClasses ext = .ok (some (.enum [] (some [(b!"Small", b!"u8"), (b!"Large", b!"u16")]), []),
    some (.struct (some [(b!"fee", b!"Amount"), (b!"id", b!"u8")]), [])) := by kernel_rfl

/-- Two Go maps that are the same, walked in two orders, are encoded to different bytes. -/
theorem C127_claim_false : ¬ C127Claim := by
  intro h
  have hj : SortedJson dummyExt := ⟨fun _ _ _ => rfl, fun _ _ _ => rfl⟩
  have hc := order_classes dummyExt
  obtain ⟨rs, h1, h2⟩ := Res.bind_eq_ok.mp hc
  obtain ⟨a, h3, h4⟩ := Res.bind_eq_ok.mp h2
  obtain ⟨b, h5, h6⟩ := Res.bind_eq_ok.mp h4
  cases h6
  have e : (orderReg dummyExt >>= fun rs => enc rs.env 2 ⟨0, none⟩ b!"u8" (.int 1)) = .ok b!"01" := by kernel_rfl
  rw [h1, Res.ok_bind] at e
  obtain ⟨ha, hne⟩ := C127_two_variants rs.env ⟨0, none⟩ b!"Amount" [] [] _ ⟨h3, by decide⟩ (by decide) (by decide) 0 1 b!"Small" b!"Large" b!"u8" b!"u16" rfl rfl
    (by decide) (by decide) (by decide) rfl rfl (.int 1) (.int 2) 2 _ e
  exact hne (h dummyExt hj 9 _ rs h1 ⟨0, none⟩ b!"Amount" _ _ ha 3)

/-- The two orders, and what they give. -/
example : (orderReg dummyExt >>= fun rs => enc rs.env 9 ⟨0, none⟩ b!"Amount" (.map [(b!"Small", .int 1), (b!"Large", .int 2)])) = .ok b!"0001" ∧
    (orderReg dummyExt >>= fun rs => enc rs.env 9 ⟨0, none⟩ b!"Amount" (.map [(b!"Large", .int 2), (b!"Small", .int 1)])) = .ok b!"010200" :=
  ⟨by kernel_rfl, by kernel_rfl⟩

/-- The hypotheses are met by a struct with an enum in it, with members that name nothing. -/
example : ∃ rs, orderReg dummyExt = .ok rs ∧ SortedJson rs.env.ext ∧
    Definite rs.env ⟨0, none⟩ b!"Pay" (.map [(b!"id", .int 7), (b!"fee", .map [(b!"note", .int 5), (b!"Large", .int 2)])]) ∧
    Alike (.map [(b!"id", .int 7), (b!"fee", .map [(b!"note", .int 5), (b!"Large", .int 2)])])
      (.map [(b!"fee", .map [(b!"Large", .int 2), (b!"note", .int 5)]), (b!"id", .int 7)]) ∧
    enc rs.env 9 ⟨0, none⟩ b!"Pay" (.map [(b!"id", .int 7), (b!"fee", .map [(b!"note", .int 5), (b!"Large", .int 2)])]) = .ok b!"01020007" := by
  have hc := order_classes dummyExt
  obtain ⟨rs, h1, h2⟩ := Res.bind_eq_ok.mp hc
  obtain ⟨a, h3, h4⟩ := Res.bind_eq_ok.mp h2
  obtain ⟨b, h5, h6⟩ := Res.bind_eq_ok.mp h4
  cases h6
  have e : (orderReg dummyExt >>= fun rs => enc rs.env 9 ⟨0, none⟩ b!"Pay" (.map [(b!"id", .int 7), (b!"fee", .map [(b!"note", .int 5), (b!"Large", .int 2)])])) =
    .ok b!"01020007" := by kernel_rfl
  have e8 : (orderReg dummyExt >>= fun rs => getCodecClass rs.env [] 0 b!"u8") = .ok (some (.u8, [])) := by kernel_rfl
  have e16 : (orderReg dummyExt >>= fun rs => getCodecClass rs.env [] 0 b!"u16") = .ok (some (.u16, [])) := by kernel_rfl
  have ex : (orderReg dummyExt >>= fun rs => .ok rs.env.ext) = .ok dummyExt := by kernel_rfl
  rw [h1, Res.ok_bind] at e e8 e16 ex
  have d8 : ∀ i, Definite rs.env ⟨0, none⟩ b!"u8" (.int i) := fun i => definite_of e8 trivial fun u x hx => by cases hx <;> contradiction
  have d16 : ∀ i, Definite rs.env ⟨0, none⟩ b!"u16" (.int i) := fun i => definite_of e16 trivial fun u x hx => by cases hx <;> contradiction
  have da : Definite rs.env ⟨0, none⟩ b!"Amount" (.map [(b!"note", .int 5), (b!"Large", .int 2)]) := by
    refine definite_of h3 (by unfold Decided; decide) fun u x hx => ?_
    cases hx with
    | variant hc ht hm _ =>
      cases hc
      simp only [List.mem_cons, Prod.mk.injEq, List.not_mem_nil, or_false] at ht hm
      rcases hm with ⟨rfl, rfl⟩ | ⟨rfl, rfl⟩
      · simp at ht
      · simp at ht
        subst ht
        exact d16 2
    | variantField hc ht hm =>
      cases hc
      simp at hm
    | _ => contradiction
  refine ⟨rs, h1, ?_, ?_, ?_, e⟩
  · rw [Res.ok.inj ex]
    exact ⟨fun _ _ _ => rfl, fun _ _ _ => rfl⟩
  · refine definite_of h5 trivial fun u x hx => ?_
    cases hx with
    | field hc ht =>
      cases hc
      simp only [List.mem_cons, Prod.mk.injEq, List.not_mem_nil, or_false] at ht
      rcases ht with ⟨rfl, rfl⟩ | ⟨rfl, rfl⟩
      · exact da
      · exact d8 7
    | _ => contradiction
  · exact .map (.cons (a := [(b!"fee", _)]) (b := []) (.same _) (.cons (a := []) (b := []) (.map (.cons (a := [(b!"Large", _)]) (b := []) (.same _)
      (.cons (a := []) (b := []) (.same _) .nil (by simp)) (by decide))) .nil (by simp)) (by decide))

/-- Those of `C127_decoded_bytes` by a struct of two integers, its members in the other order. -/
example : Encodes pointEnv ECtx.none b!"Point" (.map [(b!"y", .int 3), (b!"x", .uint 2 513)]) [1, 2, 3] :=
  C127_decoded_bytes pointEnv ⟨[], 0, none⟩ ECtx.none pointShape ⟨[], by unfold Resolves; kernel_rfl⟩
    ⟨[], by unfold Resolves; kernel_rfl, by decide⟩ point_describes point_whole (fun ty vs h => by simp [pointShape, tableShape] at h)
    (fun ty sh h => by
      simp only [pointShape, tableShape, List.mem_cons, List.not_mem_nil, or_false, Prod.mk.injEq] at h
      rcases h with ⟨_, rfl⟩ | ⟨_, rfl⟩ | ⟨_, rfl⟩ <;> trivial)
    ⟨fun _ _ _ => rfl, fun _ _ _ => rfl⟩
    b!"Point" (.struct [(b!"x", b!"u16"), (b!"y", b!"u8")]) ⟨⟨[1, 2, 3, 4], 0⟩, []⟩ [1, 2, 3] (.map [(b!"x", .uint 2 513), (b!"y", .int 3)]) _
    (by simp [pointShape, tableShape])
    ⟨show _ ≤ _ by decide, by decide⟩ ⟨6, ⟨⟨[1, 2, 3, 4], 3⟩, []⟩, by kernel_rfl, by decide, by decide⟩
    (.map (.cons (a := [(b!"y", _)]) (b := []) (.same _) (.cons (a := []) (b := []) (.same _) .nil (by simp)) (by decide)))

end ScaleGo
