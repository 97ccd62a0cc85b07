import Verif.Props.C20
import Verif.Props.C22

/-! # C23: enums

A C-like enum (all variant types are decimal numbers) does not refuse an index without variant: it returns the empty name. -/

namespace ScaleGo

/-- One or more decimal digits. -/
def IsNumberText (s : Str) : Prop := s ≠ [] ∧ ∀ c ∈ s, 48 ≤ c.toNat ∧ c.toNat ≤ 57

/-- An enum whose variants carry explicit numbers instead of types. -/
def CLike (tm : List (Str × Str)) : Prop := ∀ p ∈ tm, IsNumberText p.2

/-- A payload type written as a JSON list of fields. -/
def LooksLikeRows (t : Str) : Prop := ∃ r, t = b!"[[" ++ r

/-- The full claim. -/
def C23Claim : Prop :=
  (∀ (env : Env) (ctx : Ctx) (ectx : ECtx) (ty sub sub' : Str) (vs : List Str) (tm : List (Str × Str)) (i : Nat) (name t b : Str) (v : Val)
      (ic : List Str), ¬ CLike tm → (tm.map Prod.fst).Nodup → tm.length ≤ 256 → tm[i]? = some (name, t) → t ≠ [] → ¬ LooksLikeRows t →
    Resolves env ctx.module ctx.spec ty (.enum vs (some tm)) sub → EncResolves env ectx ty (.enum vs (some tm)) sub' →
    Encodes env ectx t v b → Decodes env ctx t b v ic →
    Encodes env ectx ty (.map [(name, v)]) (UInt8.ofNat i :: b) ∧ Decodes env ctx ty (UInt8.ofNat i :: b) (.map [(name, v)]) ic) ∧
  (∀ (env : Env) (ctx : Ctx) (ectx : ECtx) (ty sub sub' : Str) (vs : List Str) (tm : List (Str × Str)) (name t : Str),
    CLike tm → (tm.map Prod.fst).Nodup → (tm.map fun p => Spec.digitsValue p.2).Nodup → (∀ p ∈ tm, Spec.digitsValue p.2 < 256) →
    (name, t) ∈ tm → Resolves env ctx.module ctx.spec ty (.enum vs (some tm)) sub → EncResolves env ectx ty (.enum vs (some tm)) sub' →
    Encodes env ectx ty (.str name) [UInt8.ofNat (Spec.digitsValue t)] ∧
    Decodes env ctx ty [UInt8.ofNat (Spec.digitsValue t)] (.str name) []) ∧
  (∀ (env : Env) (ctx : Ctx) (ty sub : Str) (vs : List Str) (tm : List (Str × Str)) (i : UInt8),
    Resolves env ctx.module ctx.spec ty (.enum vs (some tm)) sub →
    (¬ CLike tm → tm.length ≤ i.toNat) → (CLike tm → ∀ p ∈ tm, Spec.digitsValue p.2 ≠ i.toNat) → DecodeRefuses env ctx ty [i])

theorem isNumber_iff (s : Str) : isNumber s = true ↔ IsNumberText s := by
  unfold isNumber IsNumberText
  rw [Bool.and_eq_true, List.all_eq_true]
  refine and_congr (by cases s <;> simp) (forall_congr' fun c => forall_congr' fun _ => ?_)
  unfold isDigit
  simp

theorem isCLike_iff (tm : List (Str × Str)) : isCLike tm = true ↔ CLike tm := by
  unfold isCLike CLike
  rw [List.all_eq_true]
  exact forall_congr' fun p => forall_congr' fun _ => isNumber_iff p.2

theorem isCLike_false {tm : List (Str × Str)} (h : ¬ CLike tm) : isCLike tm = false := by
  cases e : isCLike tm with
  | false => rfl
  | true => exact absurd ((isCLike_iff tm).mp e) h

theorem variantRows_none (ext : Ext) {t : Str} (h : ¬ LooksLikeRows t) : variantRows ext t = none := by
  unfold variantRows
  rw [if_neg]
  rintro ⟨_, hp⟩
  obtain ⟨r, hr⟩ := List.isPrefixOf_iff_prefix.mp hp
  exact h ⟨r, hr.symm⟩

theorem byte_toNat {i : Nat} (h : i < 256) : (UInt8.ofNat i).toNat = i := by simp; omega

/-- Decoding the position byte selects the variant at that position, and its payload follows. -/
theorem C23_decode_data (env : Env) (ctx : Ctx) (ty sub : Str) (vs : List Str) (tm : List (Str × Str)) (i : UInt8) (name t b : Str)
    (v : Val) (ic : List Str) (hnc : ¬ CLike tm) (ht : tm[i.toNat]? = some (name, t)) (hne : t ≠ []) (hrows : ¬ LooksLikeRows t)
    (h : Resolves env ctx.module ctx.spec ty (.enum vs (some tm)) sub) (hi : Decodes env ctx t b v ic) :
    Decodes env ctx ty (i :: b) (.map [(name, v)]) ic := by
  obtain ⟨N, hN⟩ := hi
  refine decodes_of_decAt h ⟨N, fun n hn => ?_⟩
  show DecAt (processEnum env.ext (pau env n) ctx vs (some tm)) _ _ _
  unfold processEnum
  refine DecAt.byte ?_
  simp only [List.headD_cons, isCLike_false hnc, Bool.false_eq_true, if_false, ht, if_neg hne, variantRows_none env.ext hrows]
  exact DecAt.last (hN n hn) fun _ => rfl

theorem decAt_rows {rec : Rec} {ctx : Ctx} (fs : List Field) (acc : List (Str × Val))
    (hd : (acc.map Prod.fst ++ fs.map (·.name)).Nodup) (h : ∀ f ∈ fs, DecAt (rec ctx f.ty) f.bytes f.val f.calls) :
    DecAt (procRows rec ctx (fs.map fun f => [f.name, f.ty]) acc) (bytesOf fs) (acc ++ valuesOf fs) (callsOf fs) := by
  have e : ∀ (fs : List Field) acc, procRows rec ctx (fs.map fun f => [f.name, f.ty]) acc = procFields rec ctx (declOf fs) acc := by
    intro fs
    induction fs with
    | nil => intro acc; rfl
    | cons f fs ih =>
      intro acc
      funext st
      show procRows rec ctx ([f.name, f.ty] :: fs.map fun f => [f.name, f.ty]) acc st = procFields rec ctx ((f.name, f.ty) :: declOf fs) acc st
      simp only [procRows, procFields, ih]
  rw [e]
  exact decAt_fields fs acc hd h

/-- A struct variant: the payload type is a JSON list of fields, here `fs`. -/
theorem C23_decode_struct (env : Env) (ctx : Ctx) (ty sub : Str) (vs : List Str) (tm : List (Str × Str)) (i : UInt8) (name t : Str)
    (fs : List Field) (hnc : ¬ CLike tm) (ht : tm[i.toNat]? = some (name, t)) (hrows : LooksLikeRows t) (hl : 4 < t.length)
    (hfs : fs ≠ []) (hd : (fs.map (·.name)).Nodup) (hj : env.ext.rows t = some (fs.map fun f => [f.name, f.ty]))
    (h : Resolves env ctx.module ctx.spec ty (.enum vs (some tm)) sub)
    (hi : ∀ f ∈ fs, Decodes env ctx f.ty f.bytes f.val f.calls) :
    Decodes env ctx ty (i :: bytesOf fs) (.map [(name, .map (valuesOf fs))]) (callsOf fs) := by
  obtain ⟨N, hN⟩ := uniform_bound fs (P := fun (f : Field) n => DecAt (pau env n ctx f.ty) f.bytes f.val f.calls) hi
  refine decodes_of_decAt h ⟨N, fun n hn => ?_⟩
  show DecAt (processEnum env.ext (pau env n) ctx vs (some tm)) _ _ _
  unfold processEnum
  refine DecAt.byte ?_
  have hv : variantRows env.ext t = some (fs.map fun f => [f.name, f.ty]) := by
    unfold variantRows
    obtain ⟨r, hr⟩ := hrows
    have hp : hasPrefix t b!"[[" = true := by rw [hr]; simp [hasPrefix, List.isPrefixOf]
    rw [if_pos ⟨hl, hp⟩, hj]
    cases fs with
    | nil => exact absurd rfl hfs
    | cons f fs => simp
  have hne : t ≠ [] := by intro e; rw [e] at hl; simp at hl
  simp only [List.headD_cons, isCLike_false hnc, Bool.false_eq_true, if_false, ht, if_neg hne, hv]
  exact DecAt.last (decAt_rows fs [] (by simpa using hd) (hN n hn)) fun _ => rfl

/-- A position without variant is refused. -/
theorem C23_refuse_data (env : Env) (ctx : Ctx) (ty sub : Str) (vs : List Str) (tm : List (Str × Str)) (i : UInt8) (hnc : ¬ CLike tm)
    (hi : tm.length ≤ i.toNat) (h : Resolves env ctx.module ctx.spec ty (.enum vs (some tm)) sub) : DecodeRefuses env ctx ty [i] := by
  refine decodeRefuses_of_process h fun r pre suf cs hl => ?_
  show processEnum env.ext r ctx vs (some tm) _ = _
  unfold processEnum
  rw [nextBytes_at pre [i] suf cs 1 rfl hl]
  have : tm[i.toNat]? = none := List.getElem?_eq_none hi
  simp only [Res.ok_bind, List.headD_cons, isCLike_false hnc, Bool.false_eq_true, if_false, this]

theorem stringToInt_number {s : Str} (h : IsNumberText s) (hl : Spec.digitsValue s < 2 ^ 63) :
    stringToInt s = (Spec.digitsValue s : Int) := by
  have hd : s.all isDigit = true := by
    have := (isNumber_iff s).mpr h
    unfold isNumber at this
    exact (Bool.and_eq_true _ _ ▸ this).2
  unfold stringToInt
  rw [decToInt_of_digits hd]
  have : decToNat? s = some (Spec.digitsValue s) := by
    unfold decToNat?
    rw [if_neg]
    · rfl
    · have : s.isEmpty = false := by cases s with
        | nil => exact absurd rfl h.1
        | cons => rfl
      simp only [this, hd]
      decide
  rw [this]
  simp only [Option.map_some]
  rw [if_pos]
  · rfl
  · constructor
    · simp
    · simp; omega

theorem nodup_map_inj {α β : Type} {f : α → β} {l : List α} (hd : (l.map f).Nodup) {x y : α} (hx : x ∈ l) (hy : y ∈ l)
    (h : f x = f y) : x = y := by
  induction l with
  | nil => simp at hx
  | cons a l ih =>
    simp only [List.map_cons, List.nodup_cons] at hd
    rcases List.mem_cons.mp hx with e | hx' <;> rcases List.mem_cons.mp hy with e' | hy'
    · rw [e, e']
    · exact absurd (List.mem_map.mpr ⟨y, hy', by rw [← h, e]⟩) hd.1
    · exact absurd (List.mem_map.mpr ⟨x, hx', by rw [h, e']⟩) hd.1
    · exact ih hd.2 hx' hy'

theorem cLikeName_mem {tm : List (Str × Str)} {name t : Str} (hc : CLike tm) (hd : (tm.map fun p => Spec.digitsValue p.2).Nodup)
    (hl : ∀ p ∈ tm, Spec.digitsValue p.2 < 2 ^ 63) (hm : (name, t) ∈ tm) : cLikeName tm (Spec.digitsValue t : Int) = name := by
  unfold cLikeName
  have huniq : ∀ p ∈ tm, stringToInt p.2 = (Spec.digitsValue t : Int) → p = (name, t) := by
    intro p hp e
    rw [stringToInt_number (hc p hp) (hl p hp)] at e
    exact nodup_map_inj hd hp hm (by simpa using e)
  split
  · rename_i p hf
    have h1 := List.mem_of_find?_eq_some hf
    have h2 := List.find?_some hf
    rw [huniq p (by simpa using h1) (by simpa using h2)]
  · rename_i hf
    have := List.find?_eq_none.mp hf (name, t) (by simpa using hm)
    rw [stringToInt_number (hc _ hm) (hl _ hm)] at this
    simp at this

theorem cLikeName_none {tm : List (Str × Str)} {i : Nat} (hc : CLike tm) (hl : ∀ p ∈ tm, Spec.digitsValue p.2 < 2 ^ 63)
    (hno : ∀ p ∈ tm, Spec.digitsValue p.2 ≠ i) : cLikeName tm (i : Int) = [] := by
  unfold cLikeName
  split
  · rename_i p hf
    have h1 : p ∈ tm := by simpa using List.mem_of_find?_eq_some hf
    have h2 := List.find?_some hf
    rw [stringToInt_number (hc p h1) (hl p h1)] at h2
    exact absurd (by simpa using h2) (hno p h1)
  · rfl

theorem decode_clike (env : Env) (ctx : Ctx) (ty sub : Str) (vs : List Str) (tm : List (Str × Str)) (i : UInt8) (hc : CLike tm)
    (h : Resolves env ctx.module ctx.spec ty (.enum vs (some tm)) sub) :
    Decodes env ctx ty [i] (.str (cLikeName tm (i.toNat : Int))) [] := by
  refine decodes_of_decAt h ⟨0, fun n hn => ?_⟩
  show DecAt (processEnum env.ext (pau env n) ctx vs (some tm)) _ _ _
  unfold processEnum
  refine DecAt.byte ?_
  simp only [List.headD_cons, (isCLike_iff tm).mpr hc, if_true]
  exact DecAt.pure _

/-- C-like: the byte selects the variant with that number. -/
theorem C23_decode_clike (env : Env) (ctx : Ctx) (ty sub : Str) (vs : List Str) (tm : List (Str × Str)) (name t : Str) (hc : CLike tm)
    (hd : (tm.map fun p => Spec.digitsValue p.2).Nodup) (hl : ∀ p ∈ tm, Spec.digitsValue p.2 < 256) (hm : (name, t) ∈ tm)
    (h : Resolves env ctx.module ctx.spec ty (.enum vs (some tm)) sub) :
    Decodes env ctx ty [UInt8.ofNat (Spec.digitsValue t)] (.str name) [] := by
  have := decode_clike env ctx ty sub vs tm (UInt8.ofNat (Spec.digitsValue t)) hc h
  rw [byte_toNat (hl _ hm), cLikeName_mem hc hd (fun p hp => Nat.lt_trans (hl p hp) (by decide)) hm] at this
  exact this

/-- C-like: of several variants with one number the last one counts. -/
theorem C23_clike_last (env : Env) (ctx : Ctx) (ty sub : Str) (vs : List Str) (tm pre post : List (Str × Str)) (name t : Str)
    (hc : CLike tm) (hl : ∀ p ∈ tm, Spec.digitsValue p.2 < 256) (ht : tm = pre ++ (name, t) :: post)
    (hno : ∀ p ∈ post, Spec.digitsValue p.2 ≠ Spec.digitsValue t)
    (h : Resolves env ctx.module ctx.spec ty (.enum vs (some tm)) sub) :
    Decodes env ctx ty [UInt8.ofNat (Spec.digitsValue t)] (.str name) [] := by
  have hm : (name, t) ∈ tm := by simp [ht]
  have hl' : ∀ p ∈ tm, Spec.digitsValue p.2 < 2 ^ 63 := fun p hp => Nat.lt_trans (hl p hp) (by decide)
  have := decode_clike env ctx ty sub vs tm (UInt8.ofNat (Spec.digitsValue t)) hc h
  rw [byte_toNat (hl _ hm)] at this
  have e : cLikeName tm (Spec.digitsValue t : Int) = name := by
    unfold cLikeName
    have hfind : tm.reverse.find? (fun p => stringToInt p.2 == (Spec.digitsValue t : Int)) = some (name, t) := by
      have hnone : post.reverse.find? (fun p => stringToInt p.2 == (Spec.digitsValue t : Int)) = none := by
        refine List.find?_eq_none.2 fun p hp => ?_
        have hp' : p ∈ tm := by simp [ht, List.mem_reverse.1 hp]
        rw [stringToInt_number (hc _ hp') (hl' _ hp')]
        simpa using fun e => hno p (List.mem_reverse.1 hp) (by omega)
      rw [ht, List.reverse_append, List.reverse_cons, List.find?_append, List.find?_append, hnone, List.find?_cons_of_pos]
      · rfl
      · simp [stringToInt_number (hc _ hm) (hl' _ hm)]
    rw [hfind]
  rw [e] at this
  exact this

/-- C-like: a byte without variant is accepted and gives the empty name. -/
theorem C23_clike_unknown (env : Env) (ctx : Ctx) (ty sub : Str) (vs : List Str) (tm : List (Str × Str)) (i : UInt8) (hc : CLike tm)
    (hl : ∀ p ∈ tm, Spec.digitsValue p.2 < 2 ^ 63) (hno : ∀ p ∈ tm, Spec.digitsValue p.2 ≠ i.toNat)
    (h : Resolves env ctx.module ctx.spec ty (.enum vs (some tm)) sub) : Decodes env ctx ty [i] (.str []) [] := by
  have := decode_clike env ctx ty sub vs tm i hc h
  rw [cLikeName_none hc hl hno] at this
  exact this

/-- Enum given by a list of names: the byte selects the name, beyond the list is refused. -/
theorem C23_decode_names (env : Env) (ctx : Ctx) (ty sub : Str) (vs : List Str) (i : UInt8)
    (h : Resolves env ctx.module ctx.spec ty (.enum vs none) sub) :
    (∀ name, vs[i.toNat]? = some name → name ≠ [] → Decodes env ctx ty [i] (.str name) []) ∧
    (vs.length ≤ i.toNat → DecodeRefuses env ctx ty [i]) := by
  constructor
  · intro name hn hne
    refine decodes_of_decAt h ⟨0, fun n _ => ?_⟩
    show DecAt (processEnum env.ext (pau env n) ctx vs none) _ _ _
    unfold processEnum
    refine DecAt.byte ?_
    simp only [List.headD_cons, hn, if_neg hne]
    exact DecAt.pure _
  · intro hi
    refine decodeRefuses_of_process h fun r pre suf cs hl => ?_
    show processEnum env.ext r ctx vs none _ = _
    unfold processEnum
    rw [nextBytes_at pre [i] suf cs 1 rfl hl]
    have : vs[i.toNat]? = none := List.getElem?_eq_none hi
    simp only [Res.ok_bind, List.headD_cons, this]

theorem findVariant_at {tm : List (Str × Str)} {name t : Str} (k i : Nat) (hd : (tm.map Prod.fst).Nodup)
    (h : tm[i]? = some (name, t)) : findVariant name k tm = some (k + i, t) := by
  induction tm generalizing k i with
  | nil => simp at h
  | cons p tm ih =>
    obtain ⟨n, t'⟩ := p
    simp only [List.map_cons, List.nodup_cons] at hd
    cases i with
    | zero =>
      simp only [List.getElem?_cons_zero, Option.some.injEq, Prod.mk.injEq] at h
      rw [findVariant, if_pos h.1, h.2]
      rfl
    | succ i =>
      simp only [List.getElem?_cons_succ] at h
      have hne : n ≠ name := by
        rintro rfl
        exact hd.1 (List.mem_map.mpr ⟨_, List.mem_of_getElem? h, rfl⟩)
      rw [findVariant, if_neg hne, ih (k + 1) i hd.2 h]
      congr 2; omega

theorem findVariant_none {tm : List (Str × Str)} {name : Str} (k : Nat) (h : name ∉ tm.map Prod.fst) : findVariant name k tm = none := by
  induction tm generalizing k with
  | nil => rfl
  | cons p tm ih =>
    obtain ⟨n, t'⟩ := p
    simp only [List.map_cons, List.mem_cons, not_or] at h
    rw [findVariant, if_neg (fun e => h.1 e.symm), ih _ h.2]

theorem findVariant_first {tm : List (Str × Str)} {name t : Str} (k i : Nat) (hu : ∀ j w, tm[j]? = some (name, w) → j = i)
    (h : tm[i]? = some (name, t)) : findVariant name k tm = some (k + i, t) := by
  induction tm generalizing k i with
  | nil => simp at h
  | cons p tm ih =>
    obtain ⟨n, t'⟩ := p
    unfold findVariant
    by_cases e : n = name
    · subst e
      obtain rfl : 0 = i := hu 0 t' rfl
      simp at h
      simp [h]
    · cases i with
      | zero => simp at h; exact absurd h.1 e
      | succ i =>
        rw [if_neg e, ih (k + 1) i (fun j w hj => by have := hu (j + 1) w (by simpa using hj); omega) (by simpa using h)]
        congr 2; omega

theorem first_of_nodup {tm : List (Str × Str)} {name t : Str} {i : Nat} (hd : (tm.map Prod.fst).Nodup) (h : tm[i]? = some (name, t)) :
    ∀ j w, tm[j]? = some (name, w) → j = i := by
  intro j w hj
  have := (findVariant_at 0 j hd hj).symm.trans (findVariant_at 0 i hd h)
  simp only [Nat.zero_add, Option.some.injEq, Prod.mk.injEq] at this
  exact this.1

theorem findEntry_first {tm : List (Str × Str)} {m : List (Str × Val)} {name t : Str} {v : Val} {i : Nat} (hu : ∀ j w, tm[j]? = some (name, w) → j = i)
    (h : tm[i]? = some (name, t)) (hm : (name, v) ∈ m) (ho : ∀ p ∈ m, p.1 ∈ tm.map Prod.fst → p = (name, v)) :
    findEntry tm m = some (i, t, v) := by
  induction m with
  | nil => simp at hm
  | cons p m ih =>
    obtain ⟨k, w⟩ := p
    by_cases hk : k ∈ tm.map Prod.fst
    · obtain ⟨rfl, rfl⟩ := Prod.mk.inj (ho (k, w) (by simp) hk)
      rw [findEntry, findVariant_first 0 i hu h]
      simp
    · rw [findEntry, findVariant_none 0 hk]
      refine ih ?_ fun p hp => ho p (by simp [hp])
      rcases List.mem_cons.mp hm with e | hm
      · obtain ⟨rfl, rfl⟩ := Prod.mk.inj e
        exact absurd (List.mem_map.mpr ⟨_, List.mem_of_getElem? h, rfl⟩) hk
      · exact hm

theorem u8Encode_nat {i : Nat} (h : i < 256) : u8Encode (i : Int) = bytesToHex [UInt8.ofNat i] := by
  unfold u8Encode
  rw [toUint_nat (by omega)]

/-- Encoding a map that names one variant, found under this name only once: its position byte and the payload. -/
theorem enum_encode_data (env : Env) (ctx : ECtx) (ty sub : Str) (vs : List Str) (tm : List (Str × Str)) (i : Nat) (name t b : Str)
    (m : List (Str × Val)) (v : Val) (hnc : ¬ CLike tm) (hu : ∀ j w, tm[j]? = some (name, w) → j = i) (hi256 : i < 256)
    (ht : tm[i]? = some (name, t)) (hrows : ¬ LooksLikeRows t) (hm : (name, v) ∈ m)
    (ho : ∀ p ∈ m, p.1 ∈ tm.map Prod.fst → p = (name, v)) (h : EncResolves env ctx ty (.enum vs (some tm)) sub)
    (hi : Encodes env ctx t v b) : Encodes env ctx ty (.map m) (UInt8.ofNat i :: b) := by
  obtain ⟨N, hN⟩ := hi
  refine encodes_of_enc h ⟨N, fun n hn => ?_⟩
  show encodeEnum env.ext (enc env n) ctx vs (some tm) (.map m) = _
  unfold encodeEnum
  simp only [isCLike_false hnc, Bool.false_eq_true, if_false, findEntry_first hu ht hm ho, variantRows_none env.ext hrows, hN n hn, Res.ok_bind]
  rw [u8Encode_nat hi256, ← bytesToHex_eq_spec, ← bytesToHex_append]
  rfl

/-- The same for a struct variant. -/
theorem enum_encode_struct (env : Env) (ctx : ECtx) (ty sub : Str) (vs : List Str) (tm : List (Str × Str)) (i : Nat) (name t : Str)
    (m vm : List (Str × Val)) (fs : List Field) (hnc : ¬ CLike tm) (hu : ∀ j w, tm[j]? = some (name, w) → j = i) (hi256 : i < 256)
    (ht : tm[i]? = some (name, t)) (hrows : LooksLikeRows t) (hlt : 4 < t.length) (hfs : fs ≠ [])
    (hj : env.ext.rows t = some (fs.map fun f => [f.name, f.ty])) (hm : (name, Val.map vm) ∈ m)
    (ho : ∀ p ∈ m, p.1 ∈ tm.map Prod.fst → p = (name, .map vm)) (hvm : (vm.map Prod.fst).Nodup)
    (hf : ∀ f ∈ fs, (f.name, f.val) ∈ vm) (h : EncResolves env ctx ty (.enum vs (some tm)) sub)
    (hi : ∀ f ∈ fs, Encodes env ctx f.ty f.val f.bytes) : Encodes env ctx ty (.map m) (UInt8.ofNat i :: bytesOf fs) := by
  obtain ⟨N, hN⟩ := uniform_bound fs (P := fun (f : Field) n => enc env n ctx f.ty f.val = .ok (Spec.hexText f.bytes)) hi
  have hv : variantRows env.ext t = some (fs.map fun f => [f.name, f.ty]) := by
    unfold variantRows
    obtain ⟨r, hr⟩ := hrows
    have hp : hasPrefix t b!"[[" = true := by rw [hr]; simp [hasPrefix, List.isPrefixOf]
    rw [if_pos ⟨hlt, hp⟩, hj]
    cases fs with
    | nil => exact absurd rfl hfs
    | cons f fs => simp
  have hr : ∀ (rec : ERec) (fs : List Field), encRows rec ctx vm (fs.map fun f => [f.name, f.ty]) = encFields rec ctx vm (declOf fs) := by
    intro rec fs
    induction fs with
    | nil => rfl
    | cons f fs ih =>
      show encRows rec ctx vm ([f.name, f.ty] :: fs.map fun f => [f.name, f.ty]) = encFields rec ctx vm ((f.name, f.ty) :: declOf fs)
      rw [encRows, encFields, ih]
  refine encodes_of_enc h ⟨N, fun n hn => ?_⟩
  show encodeEnum env.ext (enc env n) ctx vs (some tm) (.map m) = _
  unfold encodeEnum
  have hf2 := enc_fields (rec := enc env n) (ctx := ctx) (m := vm) fs (fun f hfm => by rw [mapGet_mem hvm (hf f hfm)]; exact hN n hn f hfm)
  simp only [isCLike_false hnc, Bool.false_eq_true, if_false, findEntry_first hu ht hm ho, hv, asMap, Res.ok_bind, hr, hf2]
  rw [u8Encode_nat hi256, ← bytesToHex_append]
  rfl

/-- Encoding a map that names one variant: its position byte and the payload. -/
theorem C23_encode_data (env : Env) (ctx : ECtx) (ty sub : Str) (vs : List Str) (tm : List (Str × Str)) (i : Nat) (name t b : Str)
    (m : List (Str × Val)) (v : Val) (hnc : ¬ CLike tm) (hd : (tm.map Prod.fst).Nodup) (hl : tm.length ≤ 256)
    (ht : tm[i]? = some (name, t)) (hrows : ¬ LooksLikeRows t) (hm : (name, v) ∈ m)
    (ho : ∀ p ∈ m, p.1 ∈ tm.map Prod.fst → p = (name, v)) (h : EncResolves env ctx ty (.enum vs (some tm)) sub)
    (hi : Encodes env ctx t v b) : Encodes env ctx ty (.map m) (UInt8.ofNat i :: b) := by
  exact enum_encode_data env ctx ty sub vs tm i name t b m v hnc (first_of_nodup hd ht)
    (by have := (List.getElem?_eq_some_iff.mp ht).1; omega) ht hrows hm ho h hi

/-- Encoding a struct variant. -/
theorem C23_encode_struct (env : Env) (ctx : ECtx) (ty sub : Str) (vs : List Str) (tm : List (Str × Str)) (i : Nat) (name t : Str)
    (m vm : List (Str × Val)) (fs : List Field) (hnc : ¬ CLike tm) (hd : (tm.map Prod.fst).Nodup) (hl : tm.length ≤ 256)
    (ht : tm[i]? = some (name, t)) (hrows : LooksLikeRows t) (hlt : 4 < t.length) (hfs : fs ≠ [])
    (hj : env.ext.rows t = some (fs.map fun f => [f.name, f.ty])) (hm : (name, Val.map vm) ∈ m)
    (ho : ∀ p ∈ m, p.1 ∈ tm.map Prod.fst → p = (name, .map vm)) (hvm : (vm.map Prod.fst).Nodup)
    (hf : ∀ f ∈ fs, (f.name, f.val) ∈ vm) (h : EncResolves env ctx ty (.enum vs (some tm)) sub)
    (hi : ∀ f ∈ fs, Encodes env ctx f.ty f.val f.bytes) : Encodes env ctx ty (.map m) (UInt8.ofNat i :: bytesOf fs) := by
  exact enum_encode_struct env ctx ty sub vs tm i name t m vm fs hnc (first_of_nodup hd ht)
    (by have := (List.getElem?_eq_some_iff.mp ht).1; omega) ht hrows hlt hfs hj hm ho hvm hf h hi

/-- Encoding the bare name of a variant of a data enum: its position. -/
theorem C23_encode_name (env : Env) (ctx : ECtx) (ty sub : Str) (vs : List Str) (tm : List (Str × Str)) (i : Nat) (name t : Str)
    (hnc : ¬ CLike tm) (hd : (tm.map Prod.fst).Nodup) (hl : tm.length ≤ 256) (ht : tm[i]? = some (name, t))
    (h : EncResolves env ctx ty (.enum vs (some tm)) sub) : Encodes env ctx ty (.str name) [UInt8.ofNat i] := by
  have hi256 : i < 256 := by
    have := (List.getElem?_eq_some_iff.mp ht).1
    omega
  refine encodes_of_cls h fun r => ?_
  show encodeEnum env.ext r ctx vs (some tm) (.str name) = _
  unfold encodeEnum
  simp only [isCLike_false hnc, Bool.false_eq_true, if_false, findVariant_at 0 i hd ht, Nat.zero_add]
  rw [u8Encode_nat hi256]

/-- Encoding the name of a C-like variant: its number. -/
theorem C23_encode_clike (env : Env) (ctx : ECtx) (ty sub : Str) (vs : List Str) (tm : List (Str × Str)) (name t : Str) (hc : CLike tm)
    (hd : (tm.map Prod.fst).Nodup) (hl : Spec.digitsValue t < 256) (hm : (name, t) ∈ tm)
    (h : EncResolves env ctx ty (.enum vs (some tm)) sub) : Encodes env ctx ty (.str name) [UInt8.ofNat (Spec.digitsValue t)] := by
  obtain ⟨i, ht⟩ := List.getElem?_of_mem hm
  refine encodes_of_cls h fun r => ?_
  show encodeEnum env.ext r ctx vs (some tm) (.str name) = _
  unfold encodeEnum
  simp only [(isCLike_iff tm).mpr hc, if_true, Ext.toStr, findVariant_at 0 i hd ht]
  rw [stringToInt_number (hc _ hm) (Nat.lt_trans hl (by decide)), u8Encode_nat hl]

theorem sliceIndex_at {vs : List Str} {name : Str} {i : Nat} (hd : vs.Nodup) (h : vs[i]? = some name) : sliceIndex name vs = some i := by
  induction vs generalizing i with
  | nil => simp at h
  | cons w vs ih =>
    rw [List.nodup_cons] at hd
    cases i with
    | zero =>
      simp only [List.getElem?_cons_zero, Option.some.injEq] at h
      simp [sliceIndex, h]
    | succ i =>
      simp only [List.getElem?_cons_succ] at h
      have hne : w ≠ name := fun e => hd.1 (e ▸ List.mem_of_getElem? h)
      simp [sliceIndex, hne, ih hd.2 h]

/-- Encoding a name of an enum given by a list of names: its position. -/
theorem C23_encode_names (env : Env) (ctx : ECtx) (ty sub : Str) (vs : List Str) (i : Nat) (name : Str) (hd : vs.Nodup) (hl : vs.length ≤ 256)
    (ht : vs[i]? = some name) (h : EncResolves env ctx ty (.enum vs none) sub) : Encodes env ctx ty (.str name) [UInt8.ofNat i] := by
  have hi256 : i < 256 := by
    have := (List.getElem?_eq_some_iff.mp ht).1
    omega
  refine encodes_of_cls h fun r => ?_
  show encodeEnum env.ext r ctx vs none (.str name) = _
  unfold encodeEnum
  simp only [Ext.toStr, sliceIndex_at hd ht]
  rw [u8Encode_nat hi256]

/-- Everything of the claim but the refusal of unknown numbers of C-like enums. -/
theorem C23_roundtrip_partial (env : Env) (ctx : Ctx) (ectx : ECtx) (ty sub sub' : Str) (vs : List Str) (tm : List (Str × Str))
    (h : Resolves env ctx.module ctx.spec ty (.enum vs (some tm)) sub) (h' : EncResolves env ectx ty (.enum vs (some tm)) sub')
    (hd : (tm.map Prod.fst).Nodup) :
    (¬ CLike tm → tm.length ≤ 256 → ∀ (i : Nat) (name t b : Str) (v : Val) (ic : List Str), tm[i]? = some (name, t) → t ≠ [] →
      ¬ LooksLikeRows t → Encodes env ectx t v b → Decodes env ctx t b v ic →
      Encodes env ectx ty (.map [(name, v)]) (UInt8.ofNat i :: b) ∧ Decodes env ctx ty (UInt8.ofNat i :: b) (.map [(name, v)]) ic) ∧
    (CLike tm → (tm.map fun p => Spec.digitsValue p.2).Nodup → (∀ p ∈ tm, Spec.digitsValue p.2 < 256) → ∀ name t, (name, t) ∈ tm →
      Encodes env ectx ty (.str name) [UInt8.ofNat (Spec.digitsValue t)] ∧
      Decodes env ctx ty [UInt8.ofNat (Spec.digitsValue t)] (.str name) []) ∧
    (¬ CLike tm → ∀ i : UInt8, tm.length ≤ i.toNat → DecodeRefuses env ctx ty [i]) := by
  refine ⟨fun hnc hl i name t b v ic ht hne hr hE hD => ⟨?_, ?_⟩, fun hc hdv hlv name t hm => ⟨?_, ?_⟩, fun hnc i hi => ?_⟩
  · exact C23_encode_data env ectx ty sub' vs tm i name t b _ v hnc hd hl ht hr (by simp) (by simp) h' hE
  · have hi256 : i < 256 := by
      have := (List.getElem?_eq_some_iff.mp ht).1
      omega
    exact C23_decode_data env ctx ty sub vs tm _ name t b v ic hnc (by rw [byte_toNat hi256]; exact ht) hne hr h hD
  · exact C23_encode_clike env ectx ty sub' vs tm name t hc hd (hlv _ hm) hm h'
  · exact C23_decode_clike env ctx ty sub vs tm name t hc hdv hlv hm h
  · exact C23_refuse_data env ctx ty sub vs tm i hnc hi h

/-- The full claim is false: index 1 of a C-like enum with the one number 0. -/
theorem C23_claim_false : ¬ C23Claim := by
  intro hc
  have hr : Resolves (addTypes (baseEnv dummyExt) [(b!"vote", .enum [] (some [(b!"Aye", b!"0")]))]) [] 0 b!"Vote"
      (.enum [] (some [(b!"Aye", b!"0")])) [] := by unfold Resolves; kernel_rfl
  have hcl : CLike [(b!"Aye", b!"0")] := by
    intro p hp
    rw [List.mem_singleton.mp hp]
    exact ⟨by decide, by decide⟩
  have h1 := hc.2.2 _ ⟨[], 0, none⟩ _ _ _ _ 1 hr (fun h => absurd hcl h) (by intro _; decide)
  exact refuses_not_decodes h1 (C23_clike_unknown _ ⟨[], 0, none⟩ _ _ _ _ 1 hcl (by decide) (by decide) hr) (by decide)

/-- A data enum and a C-like enum. -/
example : ¬ CLike [(b!"None", b!"Null"), (b!"Amount", b!"u32")] ∧
    ([(b!"None", b!"Null"), (b!"Amount", b!"u32")] : List (Str × Str))[1]? = some (b!"Amount", b!"u32") ∧ ¬ LooksLikeRows b!"u32" ∧
    CLike [(b!"A", b!"0"), (b!"B", b!"5")] ∧ Spec.digitsValue b!"5" = 5 ∧
    Resolves (addTypes (baseEnv dummyExt) [(b!"e", .enum [] (some [(b!"None", b!"Null"), (b!"Amount", b!"u32")]))]) [] 0 b!"E"
      (.enum [] (some [(b!"None", b!"Null"), (b!"Amount", b!"u32")])) [] := by
  refine ⟨fun h => absurd (h (b!"None", b!"Null") (by simp)).2 (by decide), rfl, ?_, ?_, by decide, by unfold Resolves; kernel_rfl⟩
  · rintro ⟨r, hr⟩; cases hr
  · intro p hp
    simp only [List.mem_cons, List.not_mem_nil, or_false] at hp
    rcases hp with rfl | rfl <;> exact ⟨by decide, by decide⟩

end ScaleGo
