import Verif.Model.Clean
import Verif.Props.C135

/-! # C136: `Clean` makes the library as good as new

English claim: whatever was registered before, after `Clean` all types mean what they mean when the program starts, so that what is loaded afterwards
does not depend on what was loaded before. -/

namespace ScaleGo

open Builtin (types)

/-- `Clean` with some order of both loops over Go's maps ends in `s`. -/
def CleansTo (st s : RegState) : Prop :=
  ∃ (order : List Str) (l : List (Str × TypeDef)) (fuel : Nat), order.Perm (types.map Prod.fst) ∧ l.Perm (inheritLoop order types) ∧ clean fuel l st = .ok s

/-- The tables at the start of a program, for some order of both loops. -/
def StartsWith (ext : Ext) (s : RegState) : Prop := ∃ order l, LoadsInOrder ext order l s

/-- `Clean` never panics, whatever was registered before and whatever the order of Go's maps. -/
theorem C136_ends (st : RegState) (order : List Str) (l : List (Str × TypeDef)) (ho : order.Perm (types.map Prod.fst))
    (hl : l.Perm (inheritLoop order types)) (fuel : Nat) : clean fuel l st = .ok ⟨loadedEnv st.env.ext, fun _ => none⟩ :=
  C75_any_order st.env.ext order ho l hl fuel

/-- Its result is the state of a program that has just started. -/
theorem C136_fresh (st s : RegState) : CleansTo st s ↔ StartsWith st.env.ext s := by
  constructor
  · rintro ⟨order, l, fuel, ho, hl, h⟩
    exact ⟨order, l, ho, hl, fuel, h⟩
  · rintro ⟨order, l, ho, hl, fuel, h⟩
    exact ⟨order, l, fuel, ho, hl, h⟩

/-- So it is one state, whatever happened before. -/
theorem C136_same (st st' s s' : RegState) (he : st.env.ext = st'.env.ext) (h : CleansTo st s) (h' : CleansTo st' s') : s = s' := by
  obtain ⟨order, l, fuel, ho, hl, h⟩ := h
  obtain ⟨order', l', fuel', ho', hl', h'⟩ := h'
  rw [C136_ends st order l ho hl] at h
  rw [C136_ends st' order' l' ho' hl'] at h'
  rw [← Res.ok.inj h, ← Res.ok.inj h', he]

/-- What is registered after `Clean` is registered as in a new program: batches of definitions of any kind. -/
theorem C136_register (st s s0 : RegState) (h : CleansTo st s) (h0 : StartsWith st.env.ext s0) (fuel : Nat) (l : List (Str × TypeDef)) :
    regCustomTypes fuel s l = regCustomTypes fuel s0 l := by
  obtain ⟨order, l0, h0⟩ := h0
  obtain ⟨order', l', h⟩ := (C136_fresh st s).mp h
  rw [C75_deterministic _ _ _ _ _ _ _ h h0]

/-- A shipped file loaded after `Clean` gives every text the class it has in a new program that loads only this file.  (The four files whose result depends on the
order of Go's maps are left out, see C108.) -/
theorem C136_network (st s s' s0 s0' : RegState) (h : CleansTo st s) (h0 : StartsWith st.env.ext s0) (f : Str × List (Str × Network.Entry))
    (hf : f ∈ Network.shipped) (hu : f.1 ∉ Network.unstable.map Prod.fst) (hr : RunsTo f.2 s s') (hr0 : RunsTo f.2 s0 s0') (m : Str) (v : Int) (t : Str) :
    getCodecClass s'.env m v t = getCodecClass s0'.env m v t := by
  obtain ⟨order, l0, h0⟩ := h0
  obtain ⟨order', l', h⟩ := (C136_fresh st s).mp h
  obtain rfl := C75_deterministic _ _ _ _ _ _ _ h h0
  exact C108_partial f hf hu s (by rw [loads_env h]; unfold loadedEnv; rfl) s' s0' hr hr0 m v t

theorem ext_alike {st s s' s0 s0' : RegState} (h : CleansTo st s) (h0 : StartsWith st.env.ext s0) {N : List (Str × Network.Entry)}
    (hr : RunsTo N s s') (hr0 : RunsTo N s0 s0') : s'.env.ext = s0'.env.ext := by
  obtain ⟨order, l0, h0⟩ := h0
  obtain ⟨order', l', h1⟩ := (C136_fresh st s).mp h
  obtain rfl := C75_deterministic _ _ _ _ _ _ _ h1 h0
  obtain ⟨_, _, _, _, _, e⟩ := hr
  obtain ⟨_, _, _, _, _, e0⟩ := hr0
  rw [(C85_register _ _ _ _ e).1, (C85_register _ _ _ _ e0).1]

/-- And so its types are decoded alike. -/
theorem C136_decode (st s s' s0 s0' : RegState) (h : CleansTo st s) (h0 : StartsWith st.env.ext s0) (f : Str × List (Str × Network.Entry))
    (hf : f ∈ Network.shipped) (hu : f.1 ∉ Network.unstable.map Prod.fst) (hr : RunsTo f.2 s s') (hr0 : RunsTo f.2 s0 s0') (n : Nat) (ctx : Ctx)
    (t : Str) (cur : St) : pau s'.env n ctx t cur = pau s0'.env n ctx t cur := by
  have hx := ext_alike h h0 hr hr0
  have hc := C136_network st s s' s0 s0' h h0 f hf hu hr hr0
  induction n generalizing ctx t cur with
  | zero => rfl
  | succ n ih =>
    have : pau s'.env n = pau s0'.env n := by
      funext c u x
      exact ih c u x
    rw [pau, pau, hc, hx, this]

/-- And encoded. -/
theorem C136_encode (st s s' s0 s0' : RegState) (h : CleansTo st s) (h0 : StartsWith st.env.ext s0) (f : Str × List (Str × Network.Entry))
    (hf : f ∈ Network.shipped) (hu : f.1 ∉ Network.unstable.map Prod.fst) (hr : RunsTo f.2 s s') (hr0 : RunsTo f.2 s0 s0') (n : Nat) (ctx : ECtx)
    (t : Str) (v : Val) : enc s'.env n ctx t v = enc s0'.env n ctx t v := by
  have hx := ext_alike h h0 hr hr0
  have hc := C136_network st s s' s0 s0' h h0 f hf hu hr hr0
  induction n generalizing ctx t v with
  | zero => rfl
  | succ n ih =>
    have : enc s'.env n = enc s0'.env n := by
      funext c u x
      exact ih c u x
    rw [enc, enc, hc, hx, this]

/-- Between the first assignments and the one that enters the classes no goroutine can read so much as a number. -/
theorem C136_meanwhile (st : RegState) (n : Nat) (spec : Int) (md : Option MD) (cur : St) :
    pau (dropV14 (dropSpecial (dropTypes st))).env (n + 1) ⟨[], spec, md⟩ b!"U32" cur = .panic := by
  have h : getCodecClass ⟨fun _ => none, fun _ => [], st.env.ext⟩ [] spec b!"U32" = .ok none := by kernel_rfl
  rw [pau]
  show (getCodecClass ⟨fun _ => none, fun _ => [], st.env.ext⟩ [] spec b!"U32" >>= _) = _
  rw [h]
  rfl

/-! ## Examples -/

/-- `Clean` after equilibrium: balances have 16 bytes again. -/
example : ∃ s s', Relation.ReflTransGen LoadsShipped ⟨loadedEnv dummyExt, fun _ => none⟩ s ∧ CleansTo s s' ∧
    s.env.reg b!"balanceof" = some .u64 ∧ s'.env.reg b!"balanceof" = some .balance := by
  have hf : Network.shipped[20]? = some (b!"equilibrium", Network.equilibrium) := by kernel_rfl
  have hg : Network.shipped[1]? = some (b!"acala", Network.acala) := by kernel_rfl
  obtain ⟨s, h1, h2⟩ := loads_of_afterTwo (List.mem_of_getElem? hf) (List.mem_of_getElem? hg) (q := fun env => env.reg b!"balanceof") (a := some .u64)
    (by kernel_rfl)
  refine ⟨s, _, h1, ⟨_, _, 0, .refl _, .refl _, C136_ends s _ _ (.refl _) (.refl _) 0⟩, h2, ?_⟩
  exact (loadedEnv_fast _ _).trans (by kernel_rfl)

end ScaleGo
