import Verif.Lemmas.Mono
import Verif.Lemmas.Shift
import Verif.Model.Extrinsic

/-! # Decoding with the classes that index the buffer from its start replaced by refusing ones

A run that succeeds although these classes refuse does not use them, so it succeeds with the same result in the original registry. -/

namespace ScaleGo

/-- `x` gives no result, or the same result as `y`. -/
def Lo {α : Type} (x y : Res α) : Prop := (∀ a, x ≠ .ok a) ∨ x = y

theorem Lo.refl {α : Type} (x : Res α) : Lo x x := Or.inr rfl

theorem Lo.bind {α β : Type} {x y : Res α} {f g : α → Res β} (h : Lo x y) (hf : ∀ a, Lo (f a) (g a)) :
    Lo (x >>= f) (y >>= g) := by
  rcases h with h | h
  · left
    intro b hb
    rw [Res.bind_eq_ok] at hb
    obtain ⟨a, ha, _⟩ := hb
    exact h a ha
  · subst h
    cases x with
    | ok a => exact hf a
    | panic => exact Or.inr rfl
    | diverge => exact Or.inr rfl

theorem Lo.ok {α : Type} {x y : Res α} {a : α} (h : Lo x y) (hx : x = .ok a) : y = .ok a := by
  rcases h with h | h
  · exact absurd hx (h a)
  · rw [← h]; exact hx

/-- Pointwise order on decoders. -/
def RecLo (r r' : Rec) : Prop := ∀ ctx ty st, Lo (r ctx ty st) (r' ctx ty st)

section
variable {r r' : Rec} (h : RecLo r r')
include h

theorem procN_lo (ctx : Ctx) (ty : Str) (n : Nat) (st : St) : Lo (procN r ctx ty n st) (procN r' ctx ty n st) := by
  induction n generalizing st with
  | zero => exact Lo.refl _
  | succ n ih => simp only [procN]; exact Lo.bind (h _ _ _) (fun a => Lo.bind (ih _) (fun _ => Lo.refl _))

theorem procFields_lo (ctx : Ctx) (fs : List (Str × Str)) (acc : List (Str × Val)) (st : St) :
    Lo (procFields r ctx fs acc st) (procFields r' ctx fs acc st) := by
  induction fs generalizing acc st with
  | nil => exact Lo.refl _
  | cons f fs ih => obtain ⟨n, t⟩ := f; simp only [procFields]; exact Lo.bind (h _ _ _) (fun a => ih _ _)

theorem procRows_lo (ctx : Ctx) (rows : List (List Str)) (acc : List (Str × Val)) (st : St) :
    Lo (procRows r ctx rows acc st) (procRows r' ctx rows acc st) := by
  induction rows generalizing acc st with
  | nil => exact Lo.refl _
  | cons row rows ih =>
    match row with
    | [] => exact Lo.refl _
    | [_] => exact Lo.refl _
    | n :: t :: _ => simp only [procRows]; exact Lo.bind (h _ _ _) (fun a => ih _ _)

theorem procPairs_lo (ext : Ext) (ctx : Ctx) (parts : List Str) (n : Nat) (st : St) :
    Lo (procPairs ext r ctx parts n st) (procPairs ext r' ctx parts n st) := by
  induction n generalizing st with
  | zero => exact Lo.refl _
  | succ n ih =>
    simp only [procPairs]
    refine Lo.bind (h _ _ _) (fun a => ?_)
    split
    · exact Lo.bind (h _ _ _) (fun a => Lo.bind (ih _) (fun _ => Lo.refl _))
    · exact Lo.refl _

theorem procArgs_lo (ctx : Ctx) (fs : List (Str × Str)) (st : St) :
    Lo (procArgs r ctx fs st) (procArgs r' ctx fs st) := by
  induction fs generalizing st with
  | nil => exact Lo.refl _
  | cons f fs ih =>
    obtain ⟨n, t⟩ := f; simp only [procArgs]
    exact Lo.bind (h _ _ _) (fun a => Lo.bind (ih _) (fun _ => Lo.refl _))

theorem processVec_lo (ctx : Ctx) (sub : Str) (st : St) : Lo (processVec r ctx sub st) (processVec r' ctx sub st) := by
  unfold processVec
  refine Lo.bind (h _ _ _) (fun a => Lo.bind (Lo.refl _) (fun n => ?_))
  split
  · exact Lo.refl _
  · exact Lo.bind (procN_lo h _ _ _ _) (fun _ => Lo.refl _)

theorem processEnum_lo (ext : Ext) (ctx : Ctx) (vs : List Str) (tm : Option (List (Str × Str))) (st : St) :
    Lo (processEnum ext r ctx vs tm st) (processEnum ext r' ctx vs tm st) := by
  unfold processEnum
  refine Lo.bind (Lo.refl _) (fun a => ?_)
  dsimp only
  split
  · exact Lo.refl _
  · split
    · exact Lo.refl _
    · split
      · exact Lo.refl _
      · split
        · exact Lo.refl _
        · split
          · exact Lo.bind (procRows_lo h _ _ _ _) (fun _ => Lo.refl _)
          · exact Lo.bind (h _ _ _) (fun _ => Lo.refl _)

theorem process_lo (ext : Ext) (ctx : Ctx) (cls : Cls) (sub : Str) (st : St) :
    Lo (process ext r ctx cls sub st) (process ext r' ctx cls sub st) := by
  have hB : ∀ st, Lo (processBytes r ctx st) (processBytes r' ctx st) := by
    intro st
    unfold processBytes
    exact Lo.bind (h _ _ _) (fun a => Lo.refl _)
  cases cls <;> simp only [process] <;> try with_reducible exact Lo.refl _
  case option t =>
    unfold processOption
    refine Lo.bind (Lo.refl _) (fun a => ?_)
    dsimp only
    split
    · split
      · exact Lo.refl _
      · exact h _ _ _
    · exact Lo.refl _
  case struct tm =>
    unfold processStruct
    exact Lo.bind (procFields_lo h _ _ _ _) (fun _ => Lo.refl _)
  case enum vs tm => exact processEnum_lo h _ _ _ _ _
  case bytes => exact hB _
  case string => exact hB _
  case hexBytes =>
    unfold processHexBytes
    exact Lo.bind (h _ _ _) (fun a => Lo.refl _)
  case vec t => exact processVec_lo h _ _ _
  case boundedVec t => exact processVec_lo h _ _ _
  case authoritiesChange => exact processVec_lo h _ _ _
  case set vs bits =>
    unfold processSet
    exact Lo.bind (h _ _ _) (fun a => Lo.refl _)
  case compact t =>
    unfold processCompact
    refine Lo.bind (Lo.refl _) (fun a => ?_)
    dsimp only
    split
    · exact Lo.refl _
    · exact Lo.bind (h _ _ _) (fun a => Lo.refl _)
  case call =>
    unfold processCall
    refine Lo.bind (Lo.refl _) (fun a => ?_)
    dsimp only
    split
    · exact Lo.refl _
    · exact Lo.bind (procArgs_lo h _ _ _) (fun a => Lo.refl _)
  case logDigest =>
    unfold processLogDigest
    refine Lo.bind (Lo.refl _) (fun a => ?_)
    dsimp only
    split
    · exact Lo.refl _
    · exact Lo.bind (h _ _ _) (fun a => Lo.refl _)
  case data =>
    unfold processData
    refine Lo.bind (Lo.refl _) (fun a => ?_)
    dsimp only
    split
    · exact Lo.refl _
    · split
      · exact Lo.refl _
      · split
        · split
          · exact Lo.bind (h _ _ _) (fun a => Lo.refl _)
          · exact Lo.refl _
        · exact Lo.refl _
  case opaqueCall =>
    unfold processOpaqueCall
    refine Lo.bind (hB _) (fun a => ?_)
    dsimp only
    split
    · exact Lo.bind (h _ _ _) (fun a => Lo.refl _)
    · exact Lo.refl _
  case bitVec =>
    unfold processBitVec
    exact Lo.bind (h _ _ _) (fun a => Lo.refl _)
  case lookupSource =>
    unfold processLookupSource
    refine Lo.bind (Lo.refl _) (fun a => Lo.bind (Lo.refl _) (fun b => ?_))
    dsimp only
    split
    · exact Lo.refl _
    · split
      · exact Lo.refl _
      · split
        · exact Lo.refl _
        · exact Lo.bind (h _ _ _) (fun a => Lo.refl _)
  case btreeMap t =>
    unfold processBTreeMap
    refine Lo.bind (h _ _ _) (fun a => Lo.bind (Lo.refl _) (fun n => ?_))
    split
    · exact Lo.refl _
    · exact Lo.bind (procPairs_lo h _ _ _ _ _) (fun _ => Lo.refl _)
  case box t => exact h _ _ _
  case result t =>
    unfold processResult
    refine Lo.bind (Lo.refl _) (fun a => ?_)
    dsimp only
    split
    · split
      · exact Lo.bind (h _ _ _) (fun a => Lo.refl _)
      · split
        · exact Lo.bind (h _ _ _) (fun a => Lo.refl _)
        · exact Lo.refl _
    · exact Lo.refl _
  case wrapperOpaque t =>
    unfold processWrapper
    exact Lo.bind (h _ _ _) (fun a => h _ _ _)
  case range t =>
    unfold processRange
    exact Lo.bind (h _ _ _) (fun a => Lo.bind (h _ _ _) (fun _ => Lo.refl _))
  case fixedI128 =>
    unfold processFixedI128
    exact Lo.bind (h _ _ _) (fun a => Lo.refl _)
  case fixedArray n t =>
    unfold processFixedArray
    split
    · split
      · exact Lo.refl _
      · exact Lo.bind (procN_lo h _ _ _ _) (fun _ => Lo.refl _)
    · exact Lo.refl _

end

/-- A class that refuses every input: an enum without variants. -/
def refusing : Cls := .enum [] none

/-- The class, or the refusing one in place of a float or a lookup source. -/
def strictCls : Cls → Cls
  | .float64 => refusing
  | .float32 => refusing
  | .lookupSource => refusing
  | c => c

/-- The registry in which floats and lookup sources refuse. -/
def strict (env : Env) : Env :=
  ⟨fun t => (env.reg t).map strictCls, fun t => (env.special t).map fun x => (x.1, x.2.1, strictCls x.2.2), env.ext⟩

theorem strictCls_abs (c : Cls) : ¬ AbsIndex (strictCls c) := by
  cases c <;> (rintro (h | h | h) <;> cases h)

theorem refusing_fails (ext : Ext) (rec : Rec) (ctx : Ctx) (sub : Str) (st : St) (a : Val × St) :
    process ext rec ctx refusing sub st ≠ .ok a := by
  intro h
  simp only [refusing, process] at h
  unfold processEnum at h
  rw [Res.bind_eq_ok] at h
  obtain ⟨⟨b, s⟩, _, h⟩ := h
  simp at h

theorem process_strict (ext : Ext) (rec : Rec) (ctx : Ctx) (c : Cls) (sub : Str) (st : St) :
    Lo (process ext rec ctx (strictCls c) sub st) (process ext rec ctx c sub st) := by
  cases c
  case float64 => exact Or.inl (refusing_fails _ _ _ _ _)
  case float32 => exact Or.inl (refusing_fails _ _ _ _ _)
  case lookupSource => exact Or.inl (refusing_fails _ _ _ _ _)
  all_goals exact Lo.refl _

theorem findSpecial_strict (spec : Int) (l : List (Int × Int × Cls)) :
    findSpecial spec (l.map fun x => (x.1, x.2.1, strictCls x.2.2)) = (findSpecial spec l).map strictCls := by
  induction l with
  | nil => rfl
  | cons x l ih =>
    obtain ⟨lo, hi, c⟩ := x
    simp only [List.map_cons, findSpecial, ih]
    split <;> rfl

theorem strictCls_fixed (t : Str) : (fixedArrayText t).map strictCls = fixedArrayText t := by
  unfold fixedArrayText
  dsimp only
  split <;> rfl

/-- A lookup that finds the same class, made strict. -/
def SameClass (x y : Res (Option Cls)) : Prop := x = y >>= fun c => .ok (c.map strictCls)

theorem getCodecInstant_strict (env : Env) (m t : Str) (spec : Int) :
    getCodecInstant (strict env) m t spec = getCodecInstant env m t spec >>= fun c => .ok (c.map strictCls) := by
  unfold getCodecInstant
  dsimp only [strict]
  rw [findSpecial_strict]
  cases findSpecial spec (env.special (moduleType (toLower t) m)) with
  | some c => rfl
  | none =>
    dsimp only [Option.map_none]
    cases env.reg (toLower (moduleType (toLower t) m)) with
    | some c => rfl
    | none =>
      dsimp only [Option.map_none]
      split
      · rfl
      · split
        · rfl
        · split
          · rw [Res.ok_bind, strictCls_fixed]
          · rfl

/-- The class and argument found, with the class made strict. -/
def strictFound (p : Cls × Str) : Cls × Str := (strictCls p.1, p.2)

theorem lookupParts_strict (env : Env) (m : Str) (spec : Int) (t : Str) :
    lookupParts (strict env) m spec t = lookupParts env m spec t >>= fun c => .ok (c.map strictFound) := by
  unfold lookupParts
  split <;>
  · rw [getCodecInstant_strict, Res.bind_assoc', Res.bind_assoc']
    congr 1
    funext c
    cases c <;> rfl

theorem lookupTuple_strict (env : Env) (m : Str) (spec : Int) (t : Str) :
    lookupTuple (strict env) m spec t = lookupTuple env m spec t >>= fun c => .ok (c.map strictFound) := by
  unfold lookupTuple
  rw [getCodecInstant_strict, Res.bind_assoc', Res.bind_assoc']
  congr 1
  funext c
  cases c with
  | none => rfl
  | some c => cases c <;> rfl

theorem getCodecClassAux_strict (env : Env) (m : Str) (spec : Int) (n : Nat) (ty : Str) :
    getCodecClassAux (strict env) m spec n ty = getCodecClassAux env m spec n ty >>= fun c => .ok (c.map strictFound) := by
  induction n generalizing ty with
  | zero => rfl
  | succ n ih =>
    unfold getCodecClassAux
    dsimp only
    generalize convertType ty = t
    split
    · rfl
    · have hw : lookupWhole (strict env) m spec t = lookupWhole env m spec t >>= fun c => .ok (c.map strictCls) := by
        unfold lookupWhole
        split
        · exact getCodecInstant_strict _ _ _ _
        · rfl
      rw [hw, Res.bind_assoc', Res.bind_assoc']
      congr 1
      funext w
      rw [Res.ok_bind]
      cases w with
      | some c => rfl
      | none =>
        dsimp only [Option.map_none]
        rw [lookupParts_strict, Res.bind_assoc', Res.bind_assoc']
        congr 1
        funext r
        rw [Res.ok_bind]
        cases r with
        | some p => rfl
        | none =>
          dsimp only [Option.map_none]
          split
          · exact lookupTuple_strict _ _ _ _
          · split
            · exact ih _
            · rfl

theorem pau_strict (env : Env) (n : Nat) : RecLo (pau (strict env) n) (pau env n) := by
  induction n with
  | zero => intro ctx ty st; exact Lo.refl _
  | succ n ih =>
    intro ctx ty st
    rw [pau, pau]
    unfold getCodecClass
    rw [getCodecClassAux_strict, Res.bind_assoc']
    refine Lo.bind (Lo.refl _) fun w => ?_
    rw [Res.ok_bind]
    cases w with
    | none => exact Lo.refl _
    | some p =>
      obtain ⟨c, sub⟩ := p
      show Lo (process env.ext (pau (strict env) n) ctx (strictCls c) sub st) (process env.ext (pau env n) ctx c sub st)
      have h1 := process_lo ih env.ext ctx (strictCls c) sub st
      have h2 := process_strict env.ext (pau env n) ctx c sub st
      rcases h1 with h1 | h1
      · exact Or.inl h1
      · rw [h1]; exact h2

theorem strict_sim (env : Env) (pre : Str) (n : Nat) : RecSim pre (pau (strict env) n) := by
  refine pau_sim (strict env) ?_ ?_ pre n
  · intro t c h
    simp only [strict, Option.map_eq_some_iff] at h
    obtain ⟨d, _, rfl⟩ := h
    exact strictCls_abs d
  · intro t lo hi c h
    simp only [strict, List.mem_map] at h
    obtain ⟨x, _, e⟩ := h
    cases e
    exact strictCls_abs _

end ScaleGo
