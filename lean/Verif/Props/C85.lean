import Verif.Props.C76
import Verif.Model.Encode
import Verif.Model.Base
import Verif.Lemmas.KernelRfl
import Verif.Model.Register
import Verif.Lemmas.Portable
import Verif.Props.C64

/-!
# C85: registering types leaves the types that do not depend on them as they were

English claim: if none of the type texts that a type leads to is looked up under a name whose entries were changed, then the type
decodes and encodes as before.  Registering definitions changes the entries of their own names only.
-/

namespace ScaleGo

/-- Texts tried for a type text: the whole text, the word before `<`, the class of tuples, and the same for the part behind the
last `::`. -/
def Spec.tried : Nat → Str → List Str
  | 0, _ => []
  | n + 1, ty =>
    let t := convertType ty
    t :: (match partsOf t with
      | some (h, _) => [h]
      | none => []) ++
      (if t ≠ b!"()" ∧ t.head? = some 40 ∧ endsWith t 41 then [b!"Struct"] else []) ++
      (if contains t b!"::" ∧ t ≠ b!"::" then Spec.tried n (lastPiece (splitSep t b!"::")) else [])

/-- The names under which a type text is looked up when it occurs in a module. -/
def Spec.namesOf (module ty : Str) : List Str :=
  (Spec.tried (ty.length + 1) ty).flatMap fun u => [moduleType (toLower u) module, toLower (moduleType (toLower u) module)]

/-- The two tables of entries have the same entries for a name. -/
def Spec.SameEntries (env env' : Env) (k : Str) : Prop := env'.reg k = env.reg k ∧ env'.special k = env.special k

/-- An argument type of some call. -/
def Spec.CallArg (md : Option MD) (t : Str) : Prop := ∃ m key e n, md = some m ∧ m.callIndex key = some e ∧ (n, t) ∈ e.args

/-- Texts that a decoder of the class reads its parts with. -/
def Spec.Reads (rows : Str → Option (List (List Str))) (md : Option MD) (c : Cls) (sub w : Str) : Prop :=
  w ∈ asks rows c sub ∨ c = .call ∧ Spec.CallArg md w

/-- The texts of one enum variant. -/
def Spec.variantTexts (rows : Str → Option (List (List Str))) (sub : Str) : List Str :=
  if sub.length > 4 ∧ hasPrefix sub b!"[[" then
    match rows sub with
    | some (r :: rs) => if r.length = 2 then rowTypes (r :: rs) else [sub]
    | _ => [sub]
  else [sub]

/-- Texts that an encoder of the class writes its parts with. -/
def Spec.Writes (rows : Str → Option (List (List Str))) (md : Option MD) (c : Cls) (sub w : Str) : Prop :=
  match c with
  | .option t => w = effSub t sub
  | .struct tm => w ∈ (tm.getD []).map (·.2)
  | .enum _ tm => w ∈ (tm.getD []).flatMap fun p => Spec.variantTexts rows p.2
  | .bytes | .opaqueCall | .hexBytes | .string | .bitVec => w = b!"Compact<u32>"
  | .vec t => w = b!"Compact<u32>" ∨ w = if t = [] then sub else t
  | .boundedVec t => w = b!"Compact<u32>" ∨ w = boundedSub t sub
  | .authoritiesChange => w = b!"Compact<u32>" ∨ w = b!"AccountId"
  | .call => Spec.CallArg md w
  | .data => w = b!"U8" ∨ w ∈ dataTM.map (·.2)
  | .result t => w ∈ splitSep (effSub t sub) b!","
  | .fixedArray _ t => w = t
  | _ => False

/-- Texts that a text leads to, in the modules `M` and the versions `S`, when the parts of a class are given by `parts`. -/
inductive Spec.Uses (env : Env) (M : Str → Prop) (S : Int → Prop) (parts : Cls → Str → Str → Prop) : Str → Str → Prop
  | refl (t : Str) : Uses env M S parts t t
  | step {t u w : Str} {m : Str} {s : Int} {c : Cls} {sub : Str} : M m → S s → getCodecClass env m s t = .ok (some (c, sub)) →
      parts c sub u → Uses env M S parts u w → Uses env M S parts t w

/-- The modules whose names for types may be met: the present one, none, and those of calls. -/
def Spec.Within (md : Option MD) (module m : Str) : Prop :=
  m = module ∨ m = [] ∨ ∃ d key e, md = some d ∧ d.callIndex key = some e ∧ e.moduleName = m

/-! ## Looking up -/

theorem instant_frame {env env' : Env} {m u : Str} (s : Int)
    (h : ∀ k ∈ [moduleType (toLower u) m, toLower (moduleType (toLower u) m)], Spec.SameEntries env env' k) :
    getCodecInstant env' m u s = getCodecInstant env m u s := by
  unfold getCodecInstant
  dsimp only
  rw [(h _ List.mem_cons_self).2, (h _ (List.mem_cons_of_mem _ List.mem_cons_self)).1]

theorem class_frame {env env' : Env} {m : Str} (s : Int) : ∀ (n : Nat) (ty : Str),
    (∀ u ∈ Spec.tried n ty, ∀ k ∈ [moduleType (toLower u) m, toLower (moduleType (toLower u) m)], Spec.SameEntries env env' k) →
    getCodecClassAux env' m s n ty = getCodecClassAux env m s n ty
  | 0, _, _ => rfl
  | n + 1, ty, h => by
    unfold getCodecClassAux
    rw [Spec.tried] at h
    dsimp only at h ⊢
    have hw : lookupWhole env' m s (convertType ty) = lookupWhole env m s (convertType ty) := by
      unfold lookupWhole
      rw [instant_frame s (h _ (by simp))]
    have hp : lookupParts env' m s (convertType ty) = lookupParts env m s (convertType ty) := by
      unfold lookupParts
      cases e : partsOf (convertType ty) with
      | none => dsimp only; rw [instant_frame s (h _ (by simp))]
      | some p =>
        obtain ⟨a, b⟩ := p
        dsimp only
        rw [instant_frame s (h a (by simp [e]))]
    rw [hw, hp]
    by_cases htup : convertType ty ≠ b!"()" ∧ (convertType ty).head? = some 40 ∧ endsWith (convertType ty) 41
    · have ht : lookupTuple env' m s (convertType ty) = lookupTuple env m s (convertType ty) := by
        unfold lookupTuple
        rw [instant_frame s (h b!"Struct" (by rw [if_pos htup]; simp))]
      simp only [if_pos htup, ht]
    · simp only [if_neg htup]
      by_cases hc : contains (convertType ty) b!"::" = true ∧ convertType ty ≠ b!"::"
      · have hr := class_frame s n (lastPiece (splitSep (convertType ty) b!"::")) fun u hu => h u (by
          rw [if_pos hc]; exact List.mem_append_right _ hu)
        simp only [if_pos hc, hr]
      · simp only [if_neg hc]

/-- Looking up a text depends on the entries of its names only. -/
theorem C85_lookup (env env' : Env) (m : Str) (s : Int) (ty : Str) (h : ∀ k ∈ Spec.namesOf m ty, Spec.SameEntries env env' k) :
    getCodecClass env' m s ty = getCodecClass env m s ty :=
  class_frame s _ _ fun _ hu _ hk => h _ (List.mem_flatMap.mpr ⟨_, hu, hk⟩)

/-! ## Decoding -/

theorem procArgs_same {rec rec' : Rec} {ctx : Ctx} : ∀ {l : List (Str × Str)} (_ : ∀ p ∈ l, rec ctx p.2 = rec' ctx p.2),
    procArgs rec ctx l = procArgs rec' ctx l
  | [], _ => rfl
  | (n, t) :: l, h => by
    funext st
    simp only [procArgs, h (n, t) List.mem_cons_self, procArgs_same fun p hp => h p (List.mem_cons_of_mem _ hp)]

/-- Contexts met below a context. -/
structure Below (M : Str → Prop) (S : Int → Prop) (md : Option MD) (ctx : Ctx) : Prop where
  md : ctx.md = md ∨ ctx.md = none
  module : M ctx.module
  spec : S ctx.spec

theorem process_frame {ext : Ext} {rec rec' : Rec} {M : Str → Prop} {S : Int → Prop} {ctx : Ctx} {md : Option MD} {c : Cls} {sub : Str}
    (h0 : M []) (hs : S 0) (hM : ∀ d key e, md = some d → d.callIndex key = some e → M e.moduleName) (hctx : Below M S md ctx)
    (h : ∀ w, Spec.Reads ext.rows md c sub w → ∀ ctx', Below M S md ctx' → rec ctx' w = rec' ctx' w) :
    process ext rec ctx c sub = process ext rec' ctx c sub := by
  by_cases hcall : c = .call
  · subst hcall
    funext st
    simp only [process, processCall]
    congr 1
    funext b
    cases hm : ctx.md with
    | none => rfl
    | some m =>
      dsimp only
      have hmd : md = some m := by rcases hctx.md with e | e <;> rw [hm] at e; exacts [e.symm, by cases e]
      have ha : ∀ e : CallEntry, (m.callIndex (bytesToHex b.1)).getD ⟨[], [], []⟩ = e →
          procArgs rec { ctx with module := e.moduleName } e.args = procArgs rec' { ctx with module := e.moduleName } e.args := by
        intro e he
        cases hi : m.callIndex (bytesToHex b.1) with
        | none => rw [hi] at he; subst he; rfl
        | some e' =>
          rw [hi] at he
          cases he
          exact procArgs_same fun p hp => h p.2 (.inr ⟨rfl, m, bytesToHex b.1, e', p.1, hmd, hi, hp⟩) _
            ⟨.inl (hm.trans hmd.symm), hM m _ e' hmd hi, hctx.spec⟩
      have := ha _ rfl
      rw [hm] at this
      rw [this]
  · refine C76_asks ext rec rec' ctx c sub (fun e => absurd e hcall) fun t ht ctx' hc' => h t (.inl ht) ctx' ?_
    rcases hc' with rfl | rfl | rfl
    exacts [hctx, ⟨.inr rfl, h0, hs⟩, ⟨hctx.md, h0, hctx.spec⟩]

theorem bind_ok_eq {α β : Type} (a : α) (f : α → Res β) : (Res.ok a).bind f = f a := rfl

theorem pau_succ (env : Env) (n : Nat) (ctx : Ctx) (t : Str) (st : St) : pau env (n + 1) ctx t st =
    (getCodecClass env ctx.module ctx.spec t).bind fun r => match r with
      | none => .panic
      | some (cls, sub) => process env.ext (pau env n) ctx cls sub st := rfl

/-- Decoding depends on the entries of the names that the type leads to only. -/
theorem C85_decode (env env' : Env) (M : Str → Prop) (S : Int → Prop) (md : Option MD) (t : Str) (h0 : M []) (hs : S 0)
    (hM : ∀ d key e, md = some d → d.callIndex key = some e → M e.moduleName) (hx : env'.ext = env.ext)
    (h : ∀ u, Spec.Uses env M S (Spec.Reads env.ext.rows md) t u → ∀ m, M m → ∀ k ∈ Spec.namesOf m u, Spec.SameEntries env env' k)
    (fuel : Nat) (ctx : Ctx) (hctx : Below M S md ctx) (st : St) : pau env' fuel ctx t st = pau env fuel ctx t st := by
  induction fuel generalizing t ctx st with
  | zero => rfl
  | succ n ih =>
    have hg := C85_lookup env env' ctx.module ctx.spec t (h t (.refl t) ctx.module hctx.module)
    rw [pau_succ, pau_succ]
    refine (congrArg (fun r => Res.bind r _) hg).trans ?_
    cases hc : getCodecClass env ctx.module ctx.spec t with
    | ok r =>
      refine (bind_ok_eq _ _).trans (Eq.trans ?_ (bind_ok_eq _ _).symm)
      cases r with
      | none => exact Eq.refl Res.panic
      | some p =>
        obtain ⟨c, sub⟩ := p
        dsimp only
        rw [hx]
        exact congrFun (process_frame h0 hs hM hctx fun w hw ctx' hc' => funext fun st' =>
          ih w (fun u hu => h u (.step hctx.module hctx.spec hc hw hu)) ctx' hc' st') st
    | panic => exact Eq.refl Res.panic
    | diverge => exact Eq.refl Res.diverge

/-! ## Encoding -/

theorem encList_same {rec rec' : ERec} {ctx : ECtx} {ty : Str} (h : rec ctx ty = rec' ctx ty) (f : Str → Str) :
    ∀ l, encList rec ctx ty f l = encList rec' ctx ty f l
  | [] => rfl
  | v :: vs => by simp only [encList, h, encList_same h f vs]

theorem encFields_same {rec rec' : ERec} {ctx : ECtx} (m : List (Str × Val)) : ∀ {l : List (Str × Str)}
    (_ : ∀ p ∈ l, rec ctx p.2 = rec' ctx p.2), encFields rec ctx m l = encFields rec' ctx m l
  | [], _ => rfl
  | (n, t) :: l, h => by
    simp only [encFields, h (n, t) List.mem_cons_self, encFields_same m fun p hp => h p (List.mem_cons_of_mem _ hp)]

theorem encRows_same {rec rec' : ERec} {ctx : ECtx} (m : List (Str × Val)) : ∀ {l : List (List Str)}
    (_ : ∀ t ∈ rowTypes l, rec ctx t = rec' ctx t), encRows rec ctx m l = encRows rec' ctx m l
  | [], _ => rfl
  | (n :: t :: r) :: l, h => by
    rw [rowTypes] at h
    simp only [encRows, h t List.mem_cons_self, encRows_same m fun p hp => h p (List.mem_cons_of_mem _ hp)]
  | [] :: l, _ => rfl
  | [_] :: l, _ => rfl

theorem encArgs_same {rec rec' : ERec} {ctx : ECtx} : ∀ {l : List (Str × Str)} (_ : ∀ p ∈ l, rec ctx p.2 = rec' ctx p.2) (vs : List Val),
    encArgs rec ctx l vs = encArgs rec' ctx l vs
  | [], _, _ => rfl
  | _ :: _, _, [] => rfl
  | (n, t) :: l, h, v :: vs => by
    simp only [encArgs, h (n, t) List.mem_cons_self, encArgs_same (fun p hp => h p (List.mem_cons_of_mem _ hp)) vs]

theorem findVariant_mem {key : Str} : ∀ {tm : List (Str × Str)} {i j : Nat} {t : Str}, findVariant key i tm = some (j, t) →
    ∃ n, (n, t) ∈ tm
  | [], _, _, _, h => by cases h
  | (n, t) :: tm, i, j, u, h => by
    rw [findVariant] at h
    split at h
    · cases h; exact ⟨n, List.mem_cons_self⟩
    · obtain ⟨n', h'⟩ := findVariant_mem h; exact ⟨n', List.mem_cons_of_mem _ h'⟩

theorem findEntry_mem {tm : List (Str × Str)} : ∀ {m : List (Str × Val)} {i : Nat} {t : Str} {v : Val}, findEntry tm m = some (i, t, v) →
    ∃ n, (n, t) ∈ tm
  | [], _, _, _, h => by cases h
  | (k, w) :: m, i, t, v, h => by
    rw [findEntry] at h
    split at h
    · rename_i hf; cases h; exact findVariant_mem hf
    · exact findEntry_mem h

theorem sliceIndex_lt {a : Str} : ∀ {l : List Str} {i : Nat}, sliceIndex a l = some i → i < l.length
  | [], _, h => by cases h
  | b :: l, i, h => by
    rw [sliceIndex] at h
    split at h
    · cases h; exact Nat.zero_lt_succ _
    · cases hs : sliceIndex a l with
      | none => rw [hs] at h; cases h
      | some j => rw [hs] at h; cases h; exact Nat.succ_lt_succ (sliceIndex_lt hs)

theorem encodeEnum_same {ext : Ext} {rec rec' : ERec} {ctx : ECtx} {vs : List Str} {tm : Option (List (Str × Str))}
    (h : ∀ w ∈ (tm.getD []).flatMap fun p => Spec.variantTexts ext.rows p.2, rec ctx w = rec' ctx w) (v : Val) :
    encodeEnum ext rec ctx vs tm v = encodeEnum ext rec' ctx vs tm v := by
  unfold encodeEnum
  cases tm with
  | none => rfl
  | some tm =>
    dsimp only
    split
    · rfl
    · split
      · rename_i m _
        cases he : findEntry tm m with
        | none => rfl
        | some p =>
          obtain ⟨i, sub, val⟩ := p
          dsimp only
          obtain ⟨n, hn⟩ := findEntry_mem he
          have hm : ∀ w ∈ Spec.variantTexts ext.rows sub, rec ctx w = rec' ctx w := fun w hw =>
            h w (List.mem_flatMap.mpr ⟨(n, sub), hn, hw⟩)
          unfold Spec.variantTexts at hm
          unfold variantRows
          split
          · rename_i rows hr
            split at hr
            · rename_i hl
              rw [if_pos hl] at hm
              split at hr
              · rename_i r rs hrs
                rw [hrs] at hm
                dsimp only at hm
                split at hr
                · rename_i h2
                  cases hr
                  rw [if_pos h2] at hm
                  simp only [encRows_same _ hm]
                · cases hr
              · cases hr
            · cases hr
          · rename_i hr
            have : rec ctx sub = rec' ctx sub := by
              split at hr
              · rename_i hl
                rw [if_pos hl] at hm
                split at hr
                · rename_i r rs hrs
                  rw [hrs] at hm
                  dsimp only at hm
                  split at hr
                  · cases hr
                  · rename_i h2
                    rw [if_neg h2] at hm
                    exact hm sub (by simp)
                · rename_i hno
                  cases hrs : ext.rows sub with
                  | none => rw [hrs] at hm; exact hm sub (by simp)
                  | some l =>
                    cases l with
                    | nil => rw [hrs] at hm; exact hm sub (by simp)
                    | cons r rs => exact absurd hrs (hno r rs)
              · rename_i hl
                rw [if_neg hl] at hm
                exact hm sub (by simp)
            rw [this]
      · rfl
      · rfl

theorem encode_frame {ext : Ext} {rec rec' : ERec} {ctx : ECtx} {md : Option MD} {c : Cls} {sub : Str} (hmd : ctx.md = md ∨ ctx.md = none)
    (h : ∀ w, Spec.Writes ext.rows md c sub w → ∀ ctx', ctx' = ctx ∨ ctx' = ECtx.none → rec ctx' w = rec' ctx' w) (v : Val) :
    encodeCls ext rec ctx c sub v = encodeCls ext rec' ctx c sub v := by
  have hn : ECtx.none = ctx ∨ ECtx.none = ECtx.none := .inr rfl
  have hctx : ctx = ctx ∨ ctx = ECtx.none := .inl rfl
  cases c <;> simp only [encodeCls, Spec.Writes] at h ⊢
  case option t => simp only [encodeOption, h _ rfl ctx hctx]
  case struct tm =>
    unfold encodeStruct
    congr 1
    funext m
    exact encFields_same m fun p hp => h p.2 (List.mem_map.mpr ⟨p, hp, rfl⟩) ctx hctx
  case enum vs tm => exact encodeEnum_same (fun w hw => h w hw ctx hctx) v
  case bytes => simp only [encodeBytes, h _ rfl _ hn]
  case opaqueCall => simp only [encodeBytes, h _ rfl _ hn]
  case hexBytes => simp only [encodeHexBytes, h _ rfl _ hn]
  case string => simp only [encodeString, h _ rfl _ hn]
  case bitVec => simp only [encodeBitVec, h _ rfl _ hn]
  case vec t => simp only [encodeVec, h _ (.inl rfl) _ hn, encList_same (h _ (.inr rfl) ctx hctx)]
  case boundedVec t => simp only [encodeVec, h _ (.inl rfl) _ hn, encList_same (h _ (.inr rfl) ctx hctx)]
  case authoritiesChange => simp only [encodeVec, h _ (.inl rfl) _ hn, encList_same (h _ (.inr rfl) ctx hctx)]
  case fixedArray n t => simp only [encodeFixedArray, encList_same (h _ rfl ctx hctx)]
  case logDigest => rfl
  case call =>
    unfold encodeCall
    cases hm : ctx.md with
    | none => rfl
    | some m =>
      have hmd : md = some m := by rcases hmd with e | e <;> rw [hm] at e; exacts [e.symm, by cases e]
      dsimp only
      congr 1
      funext p
      cases hi : m.callIndex (trimHex p.1) with
      | none => rfl
      | some e =>
        dsimp only
        rw [encArgs_same fun q hq => h q.2 ⟨m, _, e, q.1, hmd, hi, hq⟩ ctx hctx]
  case data =>
    unfold encodeData
    congr 1
    funext m
    match m with
    | [] => rfl
    | (key, val) :: _ =>
      dsimp only
      cases hs : sliceIndex key (dataTM.map Prod.fst) with
      | none => simp only [h _ (.inl rfl) _ hn]
      | some i =>
        dsimp only
        have hi := sliceIndex_lt hs
        rw [List.length_map] at hi
        have hmem : (dataTM.map Prod.snd).getD i [] ∈ dataTM.map Prod.snd := by
          rw [List.getD_eq_getElem?_getD, List.getElem?_eq_getElem (by rw [List.length_map]; exact hi)]
          exact List.getElem_mem _
        simp only [h _ (.inl rfl) _ hn, h _ (.inr hmem) _ hn]
  case result t =>
    unfold encodeResult
    congr 1
    funext m
    split
    · rename_i a e hs
      rw [hs] at h
      simp only [h a (by simp) ctx hctx, h e (by simp) ctx hctx]
    · rfl

/-- Encoding depends on the entries of the names that the type leads to only. -/
theorem C85_encode (env env' : Env) (S : Int → Prop) (md : Option MD) (t : Str) (hs : S (-1)) (hx : env'.ext = env.ext)
    (h : ∀ u, Spec.Uses env (· = []) S (Spec.Writes env.ext.rows md) t u → ∀ k ∈ Spec.namesOf [] u, Spec.SameEntries env env' k)
    (fuel : Nat) (ctx : ECtx) (hctx : ctx.md = md ∨ ctx.md = none) (hS : S ctx.spec) (v : Val) :
    enc env' fuel ctx t v = enc env fuel ctx t v := by
  induction fuel generalizing t ctx v with
  | zero => rfl
  | succ n ih =>
    unfold enc
    rw [C85_lookup env env' [] ctx.spec t (h t (.refl t)), hx]
    cases hc : getCodecClass env [] ctx.spec t with
    | ok r =>
      cases r with
      | none => rfl
      | some p =>
        obtain ⟨c, sub⟩ := p
        simp only [Res.ok_bind]
        rw [encode_frame hctx fun w hw ctx' hc' => funext fun v' => ih w (fun u hu => h u (.step rfl hS hc hw hu)) ctx'
          (by rcases hc' with rfl | rfl; exacts [hctx, .inr rfl]) (by rcases hc' with rfl | rfl; exacts [hS, hs]) v']
    | panic => rfl
    | diverge => rfl

/-! ## Registering -/

/-- Names whose entries may change when something is registered under a key: the key in lower case, or the part of it before a
version range, or the key followed by a version range. -/
def Spec.Touches (key k : Str) : Prop := k = toLower key ∨ k ++ b!"#" <+: toLower key ∨ toLower key ++ b!"#" <+: k

/-- Nothing changed but for names of the key. -/
def ChangedAt (l : Str) (env env' : Env) : Prop :=
  env'.ext = env.ext ∧ ∀ k, ¬ (k = l ∨ k ++ b!"#" <+: l ∨ l ++ b!"#" <+: k) → Spec.SameEntries env env' k

theorem ChangedAt.refl (l : Str) (env : Env) : ChangedAt l env env := ⟨rfl, fun _ _ => ⟨rfl, rfl⟩⟩

theorem ChangedAt.trans {l : Str} {a b c : Env} (h : ChangedAt l a b) (h' : ChangedAt l b c) : ChangedAt l a c :=
  ⟨h'.1.trans h.1, fun k hk => ⟨(h'.2 k hk).1.trans (h.2 k hk).1, (h'.2 k hk).2.trans (h.2 k hk).2⟩⟩

theorem prefix_cases {a l : Str} {x : UInt8} {r s : Str} (h : a ++ x :: r = l ++ x :: s) :
    a = l ∨ a ++ [x] <+: l ∨ l ++ [x] <+: a := by
  rcases Nat.lt_trichotomy a.length l.length with hl | hl | hl
  · right; left
    have h1 : a ++ [x] <+: l ++ x :: s := by rw [← h]; exact ⟨r, by simp⟩
    exact List.prefix_of_prefix_length_le h1 (List.prefix_append _ _) (by simp; omega)
  · exact .inl (List.append_inj_left h hl)
  · right; right
    have h1 : l ++ [x] <+: a ++ x :: r := by rw [h]; exact ⟨s, by simp⟩
    exact List.prefix_of_prefix_length_le h1 (List.prefix_append _ _) (by simp; omega)

theorem regCustomKey_changed {l key : Str} (hk : key = l ∨ ∃ r, key = l ++ 35 :: r) (env : Env) (c : Cls) :
    ChangedAt l env (regCustomKey env key c) := by
  unfold regCustomKey
  split
  · rename_i name range hs
    have hj : key = name ++ 35 :: range := by
      have := joinSep_splitSepAux 35 key []
      change joinSep b!"#" (splitSep key b!"#") = key at this
      rw [hs] at this
      rw [← this]; simp [joinSep]
    refine ⟨rfl, fun k hn => ⟨rfl, ?_⟩⟩
    simp only [addSpecial]
    rw [if_neg]
    rintro rfl
    refine hn ?_
    rcases hk with rfl | ⟨r, rfl⟩
    · right; left
      exact ⟨range, by rw [hj]; simp⟩
    · rcases prefix_cases hj with e | e | e
      · exact .inl e.symm
      · exact .inr (.inr e)
      · exact .inr (.inl e)
  · refine ⟨rfl, fun k hn => ⟨?_, rfl⟩⟩
    simp only [setReg]
    rw [if_neg]
    rintro rfl
    refine hn ?_
    rcases hk with rfl | ⟨r, rfl⟩
    · exact .inl rfl
    · exact .inr (.inr ⟨r, by simp⟩)

theorem lower_hash (a r : Str) : toLower (a ++ 35 :: r) = toLower a ++ 35 :: toLower r := by simp [toLower, lowerByte]

theorem v14Key_key {fuel : Nat} {st st1 : RegState} {key key1 : Str} {d : TypeDef} (h : v14Key fuel st key d = .ok (some (st1, key1))) :
    st1.env = st.env ∧ (key1 = key ∨ ∃ r, key1 = key ++ 35 :: r) := by
  unfold v14Key at h
  split at h
  · cases h; exact ⟨rfl, .inl rfl⟩
  · split at h
    · cases h; exact ⟨rfl, .inl rfl⟩
    · split at h
      · cases h
      · rw [Res.bind_eq_ok] at h
        obtain ⟨same, _, h⟩ := h
        split at h
        · cases h
        · cases h
          exact ⟨rfl, .inr ⟨intToDec d.specVec ++ b!"-" ++ intToDec d.specVec, by simp [List.append_assoc]⟩⟩

theorem regPlain_changed {l : Str} {st st' : RegState} {k : Str} {d : TypeDef} (hk : k = l ∨ ∃ r, k = l ++ 35 :: r)
    (h : regPlain st k d = .ok st') : ChangedAt l st.env st'.env := by
  rcases (regPlain_effect h).2 with e | ⟨c, e⟩ <;> rw [e]
  exacts [.refl _ _, regCustomKey_changed hk _ c]

theorem regAliasText_changed {l : Str} {st st' : RegState} {k t : Str} (hk : k = l ∨ ∃ r, k = l ++ 35 :: r)
    (h : regAliasText st k t = .ok st') : ChangedAt l st.env st'.env := by
  unfold regAliasText at h
  rw [Res.bind_eq_ok] at h
  obtain ⟨c, _, h⟩ := h
  cases c with
  | none => cases h; exact .refl _ _
  | some c => cases h; exact regCustomKey_changed hk _ c

/-- Lower-case keys that stand for `l`. -/
def KeyOf (l k : Str) : Prop := k = l ∨ ∃ r, k = l ++ 35 :: r

theorem keyOf_lower {key key1 : Str} (h : key1 = key ∨ ∃ r, key1 = key ++ 35 :: r) : KeyOf (toLower key) (toLower key1) := by
  rcases h with rfl | ⟨r, rfl⟩
  · exact .inl rfl
  · exact .inr ⟨toLower r, lower_hash _ _⟩

theorem keyOf_again {l k k1 : Str} (hl : toLower l = l) (h : KeyOf l k) (h1 : k1 = k ∨ ∃ r, k1 = k ++ 35 :: r) : KeyOf l (toLower k1) := by
  have : KeyOf l k1 := by
    rcases h with rfl | ⟨r, rfl⟩
    · exact h1
    · rcases h1 with rfl | ⟨s, rfl⟩
      · exact .inr ⟨r, rfl⟩
      · exact .inr ⟨r ++ 35 :: s, by simp⟩
  have := keyOf_lower this
  rwa [hl] at this

theorem regAlias_changed {fuel : Nat} {all : List (Str × TypeDef)} {l : Str} {st st' : RegState} {k : Str} {d : TypeDef} (hl : toLower l = l)
    (hk : KeyOf l k) (h : regAlias fuel all st k d = .ok st') : ChangedAt l st.env st'.env := by
  unfold regAlias at h
  dsimp only at h
  split at h
  · cases h; exact regCustomKey_changed hk _ _
  · split at h
    · split at h
      · split at h
        · cases h; exact regCustomKey_changed hk _ _
        · exact regAliasText_changed hk h
      · rw [Res.bind_eq_ok] at h
        obtain ⟨st1, h1, h⟩ := h
        refine ChangedAt.trans ?_ (regAliasText_changed hk h)
        unfold regSingle at h1
        rw [Res.bind_eq_ok] at h1
        obtain ⟨o, ho, h1⟩ := h1
        cases o with
        | none => cases h1; exact .refl _ _
        | some p =>
          obtain ⟨st2, key2⟩ := p
          obtain ⟨e, hk2⟩ := v14Key_key ho
          rw [← e]
          exact regPlain_changed (keyOf_again hl hk hk2) h1
    · exact regAliasText_changed hk h

theorem regEntry_changed {fuel : Nat} {all : List (Str × TypeDef)} {st st' : RegState} {key : Str} {d : TypeDef}
    (h : regEntry fuel all st key d = .ok (some st')) : ChangedAt (toLower key) st.env st'.env := by
  unfold regEntry at h
  rw [Res.bind_eq_ok] at h
  obtain ⟨o, ho, h⟩ := h
  cases o with
  | none => cases h
  | some p =>
    obtain ⟨st1, key1⟩ := p
    obtain ⟨e, hk⟩ := v14Key_key ho
    dsimp only at h
    split at h <;> rw [Res.bind_eq_ok] at h <;> obtain ⟨st2, h2, h⟩ := h <;> cases h <;> rw [← e]
    · exact regAlias_changed (toLower_idem key) (keyOf_lower hk) h2
    · exact regPlain_changed (keyOf_lower hk) h2

/-- Registering definitions changes the entries of their own names only. -/
theorem C85_register (fuel : Nat) (st st' : RegState) (l : List (Str × TypeDef)) (h : regCustomTypes fuel st l = .ok st') :
    st'.env.ext = st.env.ext ∧ ∀ k, (∀ p ∈ l, ¬ Spec.Touches p.1 k) → Spec.SameEntries st.env st'.env k := by
  have : ∀ (all todo : List (Str × TypeDef)) (st : RegState), regLoop fuel all st todo = .ok st' →
      st'.env.ext = st.env.ext ∧ ∀ k, (∀ p ∈ todo, ¬ Spec.Touches p.1 k) → Spec.SameEntries st.env st'.env k := by
    intro all todo
    induction todo with
    | nil => intro st h; cases h; exact ⟨rfl, fun _ _ => ⟨rfl, rfl⟩⟩
    | cons p todo ih =>
      intro st h
      obtain ⟨key, d⟩ := p
      rw [regLoop, Res.bind_eq_ok] at h
      obtain ⟨o, ho, h⟩ := h
      cases o with
      | none => cases h; exact ⟨rfl, fun _ _ => ⟨rfl, rfl⟩⟩
      | some st1 =>
        obtain ⟨h1, h2⟩ := regEntry_changed ho
        obtain ⟨h3, h4⟩ := ih st1 h
        refine ⟨h3.trans h1, fun k hk => ?_⟩
        have a := h2 k (hk (key, d) List.mem_cons_self)
        have b := h4 k fun p hp => hk p (List.mem_cons_of_mem _ hp)
        exact ⟨b.1.trans a.1, b.2.trans a.2⟩
  exact this l l st h

/-- Definitions that a type does not depend on may be registered without changing how the type decodes. -/
theorem C85_unrelated_decode (fuel : Nat) (st st' : RegState) (l : List (Str × TypeDef)) (h : regCustomTypes fuel st l = .ok st') (ctx : Ctx)
    (t : Str) (hu : ∀ u, Spec.Uses st.env (Spec.Within ctx.md ctx.module) (fun s => s = ctx.spec ∨ s = 0) (Spec.Reads st.env.ext.rows ctx.md) t u →
      ∀ m, Spec.Within ctx.md ctx.module m → ∀ k ∈ Spec.namesOf m u, ∀ p ∈ l, ¬ Spec.Touches p.1 k) (n : Nat) (s : St) :
    pau st'.env n ctx t s = pau st.env n ctx t s := by
  obtain ⟨hx, hs⟩ := C85_register fuel st st' l h
  exact C85_decode _ _ (Spec.Within ctx.md ctx.module) (fun s => s = ctx.spec ∨ s = 0) ctx.md t (.inr (.inl rfl)) (.inr rfl)
    (fun d key e h1 h2 => .inr (.inr ⟨d, key, e, h1, h2, rfl⟩)) hx (fun u h m hm k hk => hs k (hu u h m hm k hk)) n ctx
    ⟨.inl rfl, .inl rfl, .inl rfl⟩ s

/-- The same for encoding. -/
theorem C85_unrelated_encode (fuel : Nat) (st st' : RegState) (l : List (Str × TypeDef)) (h : regCustomTypes fuel st l = .ok st') (ctx : ECtx)
    (t : Str) (hu : ∀ u, Spec.Uses st.env (· = []) (fun s => s = ctx.spec ∨ s = -1) (Spec.Writes st.env.ext.rows ctx.md) t u →
      ∀ k ∈ Spec.namesOf [] u, ∀ p ∈ l, ¬ Spec.Touches p.1 k) (n : Nat) (v : Val) : enc st'.env n ctx t v = enc st.env n ctx t v := by
  obtain ⟨hx, hs⟩ := C85_register fuel st st' l h
  exact C85_encode _ _ (fun s => s = ctx.spec ∨ s = -1) ctx.md t (.inr rfl) hx (fun u h k hk => hs k (hu u h k hk)) n ctx (.inl rfl) (.inl rfl) v

/-! ## An example -/

/-- A definition to register. -/
def unrelatedDef : TypeDef := { kind := b!"struct", mapping := [[b!"a", b!"u8"]] }

theorem vec_uses {env : Env} {u : Str} (h1 : getCodecClass env [] 0 b!"Vec<u16>" = .ok (some (.vec [], b!"u16")))
    (h2 : getCodecClass env [] 0 b!"Compact<u32>" = .ok (some (.compactU32, []))) (h3 : getCodecClass env [] 0 b!"u16" = .ok (some (.u16, [])))
    (h : Spec.Uses env (Spec.Within none []) (fun s => s = 0 ∨ s = 0) (Spec.Reads env.ext.rows none) b!"Vec<u16>" u) : u = b!"Vec<u16>" ∨ u = b!"Compact<u32>" ∨ u = b!"u16" := by
  have hM : ∀ m, Spec.Within none [] m → m = [] := by
    rintro m (h | h | ⟨_, _, _, h, _⟩)
    exacts [h, h, by cases h]
  have leaf : ∀ {t w : Str} {c : Cls}, getCodecClass env [] 0 t = .ok (some (c, [])) → asks env.ext.rows c [] = [] → c ≠ .call →
      Spec.Uses env (Spec.Within none []) (fun s => s = 0 ∨ s = 0) (Spec.Reads env.ext.rows none) t w → w = t := by
    intro t w c hc ha hn h
    cases h with
    | refl => rfl
    | step hm hs hg hr _ =>
      have hs : _ = (0 : Int) := hs.elim id id
      rw [hM _ hm, hs, hc] at hg
      cases hg
      rcases hr with hr | ⟨hr, _⟩
      · rw [ha] at hr; cases hr
      · exact absurd hr hn
  cases h with
  | refl => exact .inl rfl
  | step hm hs hg hr h =>
    have hs : _ = (0 : Int) := hs.elim id id
    rw [hM _ hm, hs, h1] at hg
    cases hg
    rcases hr with hr | ⟨hr, _⟩
    · simp only [asks, if_true, List.mem_cons, List.not_mem_nil, or_false] at hr
      rcases hr with rfl | rfl
      · exact .inr (.inl (leaf (c := .compactU32) h2 rfl (by decide) h))
      · exact .inr (.inr (leaf (c := .u16) h3 rfl (by decide) h))
    · cases hr

/-- A type called `Other` does not change sequences of numbers. -/
example (st' : RegState) (h : regCustomTypes 9 ⟨baseEnv dummyExt, fun _ => none⟩ [(b!"Other", unrelatedDef)] = .ok st') (n : Nat) (s : St) :
    pau st'.env n ⟨[], 0, none⟩ b!"Vec<u16>" s = pau (baseEnv dummyExt) n ⟨[], 0, none⟩ b!"Vec<u16>" s := by
  refine C85_unrelated_decode 9 _ st' _ h ⟨[], 0, none⟩ _ (fun u hu m hm k hk p hp => ?_) n s
  cases List.mem_singleton.mp hp
  have hm : m = [] := by
    rcases hm with h | h | ⟨_, _, _, h, _⟩
    exacts [h, h, by cases h]
  subst hm
  have key : ∀ u, u = b!"Vec<u16>" ∨ u = b!"Compact<u32>" ∨ u = b!"u16" → ∀ k ∈ Spec.namesOf [] u,
      k ≠ b!"other" ∧ (k ++ b!"#").isPrefixOf b!"other" = false ∧ b!"other#".isPrefixOf k = false := by
    rintro u (rfl | rfl | rfl) <;> decide +kernel
  obtain ⟨h1, h2, h3⟩ := key u (vec_uses (env := baseEnv dummyExt) (by kernel_rfl) (by kernel_rfl) (by kernel_rfl) hu) k hk
  rintro (e | e | e)
  · exact h1 e
  · have e : k ++ b!"#" <+: b!"other" := e
    rw [List.isPrefixOf_iff_prefix.mpr e] at h2; cases h2
  · have e : b!"other#" <+: k := e
    rw [List.isPrefixOf_iff_prefix.mpr e] at h3; cases h3

end ScaleGo
