import Verif.Lemmas.Comp

/-! # C22: structs and tuples

A tuple text resolves to the struct class with its members as fields (`col1`, `col2`, ..., C35), so it is covered here. -/

namespace ScaleGo

/-- A field: name, type text, value, bytes, reported calls. -/
structure Field where
  name : Str
  ty : Str
  val : Val
  bytes : Str
  calls : List Str

/-- Declaration, value and bytes of a struct. -/
def declOf (fs : List Field) : List (Str × Str) := fs.map fun f => (f.name, f.ty)
def valuesOf (fs : List Field) : List (Str × Val) := fs.map fun f => (f.name, f.val)
def bytesOf (fs : List Field) : Str := (fs.map (·.bytes)).flatten
def callsOf (fs : List Field) : List Str := (fs.map (·.calls)).flatten

/-- The full claim. `m` is any Go map that has the fields, with other entries and in any order. -/
def C22Claim : Prop :=
  ∀ (env : Env) (ctx : Ctx) (ectx : ECtx) (ty sub sub' : Str) (fs : List Field), (fs.map (·.name)).Nodup →
    Resolves env ctx.module ctx.spec ty (.struct (some (declOf fs))) sub →
    EncResolves env ectx ty (.struct (some (declOf fs))) sub' →
    (∀ f ∈ fs, Encodes env ectx f.ty f.val f.bytes) → (∀ f ∈ fs, Decodes env ctx f.ty f.bytes f.val f.calls) →
    (∀ m : List (Str × Val), (m.map Prod.fst).Nodup → (∀ f ∈ fs, (f.name, f.val) ∈ m) → Encodes env ectx ty (.map m) (bytesOf fs)) ∧
    Decodes env ctx ty (bytesOf fs) (.map (valuesOf fs)) (callsOf fs) ∧
    (∀ m : List (Str × Val), (∃ f ∈ fs, f.name ∉ m.map Prod.fst) → EncodeRefuses env ectx ty (.map m))

theorem mapSet_new {m : List (Str × Val)} {k : Str} (v : Val) (h : k ∉ m.map Prod.fst) : mapSet m k v = m ++ [(k, v)] := by
  induction m with
  | nil => rfl
  | cons p m ih =>
    obtain ⟨k', v'⟩ := p
    simp only [List.map_cons, List.mem_cons, not_or] at h
    rw [mapSet, if_neg (fun e => h.1 e.symm), ih h.2]
    rfl

theorem mapGet_mem {m : List (Str × Val)} {k : Str} {v : Val} (hd : (m.map Prod.fst).Nodup) (h : (k, v) ∈ m) :
    mapGet m k = some v := by
  induction m with
  | nil => simp at h
  | cons p m ih =>
    obtain ⟨k', v'⟩ := p
    simp only [List.map_cons, List.nodup_cons] at hd
    rcases List.mem_cons.mp h with e | h
    · obtain ⟨rfl, rfl⟩ := Prod.mk.inj e
      rw [mapGet, if_pos rfl]
    · have hne : k' ≠ k := by
        rintro rfl
        exact hd.1 (List.mem_map.mpr ⟨_, h, rfl⟩)
      rw [mapGet, if_neg hne, ih hd.2 h]

theorem mapGet_absent {m : List (Str × Val)} {k : Str} (h : k ∉ m.map Prod.fst) : mapGet m k = none := by
  induction m with
  | nil => rfl
  | cons p m ih =>
    obtain ⟨k', v'⟩ := p
    simp only [List.map_cons, List.mem_cons, not_or] at h
    rw [mapGet, if_neg (fun e => h.1 e.symm), ih h.2]

theorem decAt_fields {rec : Rec} {ctx : Ctx} (fs : List Field) (acc : List (Str × Val))
    (hd : (acc.map Prod.fst ++ fs.map (·.name)).Nodup) (h : ∀ f ∈ fs, DecAt (rec ctx f.ty) f.bytes f.val f.calls) :
    DecAt (procFields rec ctx (declOf fs) acc) (bytesOf fs) (acc ++ valuesOf fs) (callsOf fs) := by
  induction fs generalizing acc with
  | nil =>
    simp only [valuesOf, List.map_nil, List.append_nil]
    exact DecAt.pure acc
  | cons f fs ih =>
    have hn : f.name ∉ acc.map Prod.fst := by
      intro hm
      have := (List.nodup_append.mp hd).2.2 _ hm f.name (by simp)
      exact this rfl
    have e := ih (acc ++ [(f.name, f.val)]) (by simpa [List.append_assoc] using hd) (fun g hg => h g (by simp [hg]))
    have h1 := h f (by simp)
    have key : DecAt (fun st => rec ctx f.ty st >>= fun x => procFields rec ctx (declOf fs) (mapSet acc f.name x.1) x.2)
        (f.bytes ++ bytesOf fs) (acc ++ [(f.name, f.val)] ++ valuesOf fs) (f.calls ++ callsOf fs) := by
      refine DecAt.step h1 ?_
      dsimp only
      rw [mapSet_new f.val hn]
      exact e
    have e1 : acc ++ valuesOf (f :: fs) = acc ++ [(f.name, f.val)] ++ valuesOf fs := by simp [valuesOf]
    rw [e1]
    exact key

/-- Decoding reads the fields in declared order and returns exactly them. -/
theorem C22_decode (env : Env) (ctx : Ctx) (ty sub : Str) (fs : List Field) (hd : (fs.map (·.name)).Nodup)
    (h : Resolves env ctx.module ctx.spec ty (.struct (some (declOf fs))) sub)
    (hi : ∀ f ∈ fs, Decodes env ctx f.ty f.bytes f.val f.calls) :
    Decodes env ctx ty (bytesOf fs) (.map (valuesOf fs)) (callsOf fs) := by
  obtain ⟨N, hN⟩ := uniform_bound fs (P := fun (f : Field) n => DecAt (pau env n ctx f.ty) f.bytes f.val f.calls) hi
  refine decodes_of_decAt h ⟨N, fun n hn => ?_⟩
  show DecAt (processStruct (pau env n) ctx (some (declOf fs))) _ _ _
  unfold processStruct
  have := decAt_fields fs [] (by simpa using hd) (hN n hn)
  exact DecAt.last this fun _ => rfl

/-- Value used for a field: the map entry, nil when there is none. -/
theorem enc_fields {rec : ERec} {ctx : ECtx} {m : List (Str × Val)} (fs : List Field)
    (h : ∀ f ∈ fs, rec ctx f.ty ((mapGet m f.name).getD .nil) = .ok (Spec.hexText f.bytes)) :
    encFields rec ctx m (declOf fs) = .ok (bytesToHex (bytesOf fs)) := by
  induction fs with
  | nil => rfl
  | cons f fs ih =>
    have e := ih fun g hg => h g (by simp [hg])
    show encFields rec ctx m ((f.name, f.ty) :: declOf fs) = _
    rw [encFields, h f (by simp), e]
    have : bytesOf (f :: fs) = f.bytes ++ bytesOf fs := by simp [bytesOf]
    simp only [Res.ok_bind, this, bytesToHex_append]
    rw [bytesToHex_eq_spec f.bytes]

/-- Encoding concatenates the fields' encodings in declared order, whatever else is in the map and in whatever order. -/
theorem C22_encode (env : Env) (ctx : ECtx) (ty sub : Str) (fs : List Field) (m : List (Str × Val)) (hm : (m.map Prod.fst).Nodup)
    (hf : ∀ f ∈ fs, (f.name, f.val) ∈ m) (h : EncResolves env ctx ty (.struct (some (declOf fs))) sub)
    (hi : ∀ f ∈ fs, Encodes env ctx f.ty f.val f.bytes) : Encodes env ctx ty (.map m) (bytesOf fs) := by
  obtain ⟨N, hN⟩ := uniform_bound fs (P := fun (f : Field) n => enc env n ctx f.ty f.val = .ok (Spec.hexText f.bytes)) hi
  refine encodes_of_enc h ⟨N, fun n hn => ?_⟩
  show encodeStruct (enc env n) ctx (some (declOf fs)) (.map m) = _
  unfold encodeStruct
  simp only [asMap, Res.ok_bind, Option.getD_some]
  refine enc_fields fs fun f hfm => ?_
  rw [mapGet_mem hm (hf f hfm)]
  exact hN n hn f hfm

/-- A missing field is not refused: it is encoded as nil, which most types turn into a zero value. -/
theorem C22_missing (env : Env) (ctx : ECtx) (ty sub : Str) (fs : List Field) (m : List (Str × Val)) (hm : (m.map Prod.fst).Nodup)
    (hf : ∀ f ∈ fs, (f.name, f.val) ∈ m ∨ f.name ∉ m.map Prod.fst ∧ f.val = .nil)
    (h : EncResolves env ctx ty (.struct (some (declOf fs))) sub)
    (hi : ∀ f ∈ fs, Encodes env ctx f.ty f.val f.bytes) : Encodes env ctx ty (.map m) (bytesOf fs) := by
  obtain ⟨N, hN⟩ := uniform_bound fs (P := fun (f : Field) n => enc env n ctx f.ty f.val = .ok (Spec.hexText f.bytes)) hi
  refine encodes_of_enc h ⟨N, fun n hn => ?_⟩
  show encodeStruct (enc env n) ctx (some (declOf fs)) (.map m) = _
  unfold encodeStruct
  simp only [asMap, Res.ok_bind, Option.getD_some]
  refine enc_fields fs fun f hfm => ?_
  rcases hf f hfm with hin | ⟨hno, hnil⟩
  · rw [mapGet_mem hm hin]
    exact hN n hn f hfm
  · rw [mapGet_absent hno]
    have := hN n hn f hfm
    rw [hnil] at this
    exact this

/-- A value that is not a map is refused. -/
theorem C22_refuses_other (env : Env) (ctx : ECtx) (ty sub : Str) (tm : Option (List (Str × Str))) (v : Val)
    (hv : ∀ m, v ≠ .map m) (h : EncResolves env ctx ty (.struct tm) sub) : EncodeRefuses env ctx ty v := by
  refine encodeRefuses_of_cls h fun r => ?_
  show encodeStruct r ctx tm (argOf v) = _
  unfold encodeStruct
  cases v <;> first | rfl | exact absurd rfl (hv _)

/-- Encode from any such map, then decode. -/
theorem C22_roundtrip_partial (env : Env) (ctx : Ctx) (ectx : ECtx) (ty sub sub' : Str) (fs : List Field) (hd : (fs.map (·.name)).Nodup)
    (h : Resolves env ctx.module ctx.spec ty (.struct (some (declOf fs))) sub)
    (h' : EncResolves env ectx ty (.struct (some (declOf fs))) sub')
    (hE : ∀ f ∈ fs, Encodes env ectx f.ty f.val f.bytes) (hD : ∀ f ∈ fs, Decodes env ctx f.ty f.bytes f.val f.calls) :
    (∀ m : List (Str × Val), (m.map Prod.fst).Nodup → (∀ f ∈ fs, (f.name, f.val) ∈ m) → Encodes env ectx ty (.map m) (bytesOf fs)) ∧
    Decodes env ctx ty (bytesOf fs) (.map (valuesOf fs)) (callsOf fs) :=
  ⟨fun m hm hf => C22_encode env ectx ty sub' fs m hm hf h' hE, C22_decode env ctx ty sub fs hd h hD⟩

theorem refuses_not_encodes {env : Env} {ctx : ECtx} {ty b : Str} {v : Val} (h1 : EncodeRefuses env ctx ty v)
    (h2 : Encodes env ctx ty v b) : False := by
  obtain ⟨N, h1⟩ := h1
  obtain ⟨M, h2⟩ := h2
  have e1 := h1 (N + M) (by omega)
  have e2 := h2 (N + M) (by omega)
  rw [e1] at e2
  cases e2

/-- The full claim is false: the tuple (u32) without its member encodes as 00000000. -/
theorem C22_claim_false : ¬ C22Claim := by
  intro hc
  have hr : Resolves (baseEnv dummyExt) [] 0 b!"(u32)" (.struct (some (declOf [⟨b!"col1", b!"u32", .uint 4 0, [0, 0, 0, 0], []⟩]))) [] := by
    unfold Resolves; kernel_rfl
  have he : EncResolves (baseEnv dummyExt) ECtx.none b!"(u32)" (.struct (some (declOf [⟨b!"col1", b!"u32", .uint 4 0, [0, 0, 0, 0], []⟩]))) [] :=
    ⟨by unfold Resolves; kernel_rfl, by decide⟩
  have hru : Resolves (baseEnv dummyExt) [] 0 b!"u32" .u32 [] := by unfold Resolves; kernel_rfl
  have heu : EncResolves (baseEnv dummyExt) ECtx.none b!"u32" .u32 [] := ⟨by unfold Resolves; kernel_rfl, by decide⟩
  have hE : ∀ v ∈ [Val.uint 4 0, Val.nil], Encodes (baseEnv dummyExt) ECtx.none b!"u32" v [0, 0, 0, 0] := by
    intro v hv
    refine encodes_of_cls heu fun r => ?_
    simp only [List.mem_cons, List.not_mem_nil, or_false] at hv
    rcases hv with rfl | rfl <;> rfl
  have hD : Decodes (baseEnv dummyExt) ⟨[], 0, none⟩ b!"u32" [0, 0, 0, 0] (.uint 4 0) [] := by
    refine decodes_of_read hru fun r pre suf cs hl => ?_
    show processUint 4 _ = _
    unfold processUint
    rw [nextBytes_at pre [0, 0, 0, 0] suf cs (4 : Nat) rfl hl]
    rfl
  have := (hc _ ⟨[], 0, none⟩ _ _ _ _ [⟨b!"col1", b!"u32", .uint 4 0, [0, 0, 0, 0], []⟩] (by simp) hr he
    (by intro f hf; rw [List.mem_singleton.mp hf]; exact hE _ (by simp))
    (by intro f hf; rw [List.mem_singleton.mp hf]; exact hD)).2.2 [] ⟨_, List.mem_singleton.mpr rfl, by simp⟩
  refine refuses_not_encodes this (C22_missing _ _ _ _ [⟨b!"col1", b!"u32", .nil, [0, 0, 0, 0], []⟩] [] (by simp) ?_ he ?_)
  · intro f hf; rw [List.mem_singleton.mp hf]; exact .inr ⟨by simp, rfl⟩
  · intro f hf; rw [List.mem_singleton.mp hf]; exact hE _ (by simp)

/-- A tuple of two members; the map also has another entry and a different order. -/
example (ext : Ext) : Resolves (baseEnv ext) [] 0 b!"(bool,u32)"
      (.struct (some (declOf [⟨b!"col1", b!"bool", .bool true, [1], []⟩, ⟨b!"col2", b!"u32", .uint 4 7, [7, 0, 0, 0], []⟩]))) [] ∧
    EncResolves (baseEnv ext) ECtx.none b!"(bool,u32)" (.struct (some [(b!"col1", b!"bool"), (b!"col2", b!"u32")])) [] ∧
    ([(b!"x", Val.nil), (b!"col2", .uint 4 7), (b!"col1", .bool true)].map Prod.fst).Nodup :=
  ⟨by unfold Resolves; kernel_rfl, ⟨by unfold Resolves; kernel_rfl, by decide⟩, by decide⟩

end ScaleGo
