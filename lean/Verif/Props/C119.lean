import Verif.Props.C116
import Verif.Lemmas.LooseDec

/-! # C119: the byte strings that the decoder takes are exactly those of the lax language -/

namespace ScaleGo
open _root_.Spec (Shape Payload Part Scale Leaf Loose Accepts AnyCompact compactNumber compactInt leSum listValue fieldTypes fieldOutputs
  outputs inputs allBytes Tidy Whole)

/-- The shapes determine the values: no compact decimals, and enums of names that either read unknown members as the empty name, or have
a name for every byte. -/
def Determined (env : Env) (ctx : Ctx) (shape : Str → Shape Str → Prop) : Prop :=
  ∀ ty sh r b, shape ty sh → b.length < 2 ^ 48 → Sure sh r b ∨ Tolerant env ctx ty sh

theorem allBytes_le {ps : List (Part Str)} {p : Part Str} (h : p ∈ ps) : p.bytes.length ≤ (allBytes ps).length := by
  induction ps with
  | nil => cases h
  | cons q ps ih =>
    simp only [allBytes, List.map_cons, List.flatten_cons, List.length_append] at ih ⊢
    rcases List.mem_cons.1 h with rfl | h
    · omega
    · have := ih h
      omega

/-- What is accepted is decoded, wherever it stands and whatever follows. -/
theorem C119_decoded (env : Env) (ctx : Ctx) (ectx : ECtx) (shape : Str → Shape Str → Prop) (ok : Shape Str → Val → Str → Prop)
    (hL : LenOK env ctx) (hs : Describes env ctx ectx shape) (hw : Whole shape)
    (hok : ∀ ty sh r b, shape ty sh → ok sh r b → b.length < 2 ^ 48 → Sure sh r b ∨ Tolerant env ctx ty sh)
    (ty : Str) (r : Val) (b : Str) (h : Accepts shape ok ty r b) (hlen : b.length < 2 ^ 48) : Decodes env ctx ty b r [] := by
  induction h with
  | leaf hsh hl hc => exact leaf_loose hL (hs _ _ hsh) hl (hok _ _ _ _ hsh hc hlen)
  | @seq ty el c ps hsh ha hle hl _ hc ih =>
    rw [List.length_append] at hlen
    obtain ⟨cls, s, s', hD, hE, hv, hv'⟩ | ⟨h, _⟩ := hs _ _ hsh
    swap
    · cases h
    obtain ⟨N1, h1⟩ := len_loose hL ha
    have hi : ∀ x ∈ ps.map (fun p => ((p.out, p.bytes, []) : Item)), Decodes env ctx el x.2.1 x.1 x.2.2 := by
      simpa using fun p hp => ih p hp (by have := allBytes_le hp; omega)
    obtain ⟨N2, h2⟩ := uniform_bound _ (P := fun (x : Item) n => DecAt (pau env n ctx el) x.2.1 x.1 x.2.2) hi
    refine decodes_of_decAt hD ⟨max N1 N2, fun n hn => ?_⟩
    rw [vec_process hv]
    have e : processVec (pau env n) ctx el = fun st => pau env n ctx b!"Compact<u32>" st >>= fun p => asInt p.1 >>= fun i =>
        (fun (i : Int) (st : St) => if i > 524288 then .panic else procN (pau env n) ctx el i.toNat st >>= fun q => .ok (mkSlice q.1, q.2)) i p.2 := rfl
    rw [e]
    refine decAt_len (k := fun (i : Int) (st : St) => if i > 524288 then .panic else
      procN (pau env n) ctx el i.toNat st >>= fun q => .ok (mkSlice q.1, q.2)) (h1 n (by omega)) ?_
    simp only [if_neg (show ¬ compactInt c > 524288 by omega), ← hl]
    have := (decAt_procN _ (h2 n (by omega))).map mkSlice
    rw [listValue_eq]
    simpa [nil_flatten, outputs, allBytes, List.map_map, Function.comp_def] using this
  | @none ty el hsh =>
    obtain ⟨cls, s, s', hD, hE, _, _, t, rfl, _⟩ | ⟨h, _⟩ := hs _ _ hsh
    swap
    · cases h
    exact C21_decode_none env ctx ty t s hD
  | @some ty el r b x hsh hx _ hc ih =>
    obtain ⟨cls, s, s', hD, hE, hne, hnb, t, rfl, e1, e2⟩ | ⟨h, _⟩ := hs _ _ hsh
    swap
    · cases h
    exact C21_decode_some env ctx ty t s el b x r [] e1 hne hnb hx hD (ih (by simp at hlen; omega))
  | @struct ty ps hsh _ ih =>
    have hT : ((fieldTypes ps).map Prod.fst).Nodup := (hw _ _ hsh).2
    obtain ⟨cls, s, s', hD, hE, rfl | ⟨hnil, rfl⟩⟩ | ⟨h, _⟩ := hs _ _ hsh
    rotate_left
    · obtain rfl : ps = [] := by simpa [fieldTypes] using hnil
      refine decodes_of_read hD fun r pre suf cs hl => ?_
      show Res.ok _ = _
      simp [fieldOutputs, allBytes]
    · cases h
    have := C22_decode env ctx ty s (decFields ps) (by simpa [decFields, fieldTypes, List.map_map, Function.comp_def] using hT)
      (by simpa [decFields, declOf, fieldTypes, List.map_map, Function.comp_def] using hD)
      (by simpa [decFields] using fun p hp => ih p hp (by have := allBytes_le hp; omega))
    rw [calls_nil] at this
    simpa [decFields, bytesOf, allBytes, valuesOf, fieldOutputs, List.map_map, Function.comp_def] using this
  | @variant ty vs t r b x name hsh hi _ ih =>
    obtain ⟨cls, s, s', hD, hE, vl, tm, rfl, hnc, hf⟩ | ⟨h, _⟩ := hs _ _ hsh
    swap
    · cases h
    obtain ⟨hi256, u, hti, hu, rfl, hne, hrows⟩ := hf _ hi
    exact C23_decode_data env ctx ty s vl tm _ _ _ b r [] hnc hti hne hrows hD (ih (by simp at hlen; omega))
  | @fields ty vs x name ps hsh hi _ ih =>
    have hT : ((fieldTypes ps).map Prod.fst).Nodup := (hw _ _ hsh).2 _ hi _ rfl
    obtain ⟨cls, s, s', hD, hE, vl, tm, rfl, hnc, hf⟩ | ⟨h, _⟩ := hs _ _ hsh
    swap
    · cases h
    obtain ⟨hi256, t', hti, hu, hrows, hlen', hne, hj⟩ := hf _ hi
    have hps : ps ≠ [] := by rintro rfl; exact hne rfl
    have := C23_decode_struct env ctx ty s vl tm x name t' (decFields ps) hnc hti hrows hlen'
      (by simpa [decFields] using hps) (by simpa [decFields, fieldTypes, List.map_map, Function.comp_def] using hT)
      (by simpa [decFields, fieldTypes, List.map_map, Function.comp_def] using hj) hD
      (by simpa [decFields] using fun p hp => ih p hp (by have := allBytes_le hp; simp at hlen; omega))
    rw [calls_nil] at this
    simpa [decFields, bytesOf, allBytes, valuesOf, fieldOutputs, List.map_map, Function.comp_def] using this
  | @array ty n el ps hsh h0 hl _ ih =>
    obtain ⟨cls, s, s', hD, hE, rfl, hel⟩ | ⟨h, _⟩ := hs _ _ hsh
    swap
    · cases h
    have := C25_decode_partial env ctx ty s el (ps.map fun p => (p.out, p.bytes, [])) n hD hel (by simpa using hl) (by omega)
      (by simpa using fun p hp => ih p hp (by have := allBytes_le hp; omega))
    simpa [nil_flatten, outputs, allBytes, List.map_map, Function.comp_def] using this
  | @emptyArray ty el x hsh hc =>
    obtain ⟨cls, s, s', hD, hE, rfl, hel⟩ | ⟨h, _⟩ := hs _ _ hsh
    swap
    · cases h
    refine decodes_of_decAt hD ⟨0, fun n _ => ?_⟩
    show DecAt (processFixedArray _ _ _ _) _ _ _
    unfold processFixedArray
    simp only [if_neg (show ¬ ((0 : Nat) : Int) > 0 by decide)]
    refine DecAt.last (f := getNextU8) (a := (x.toNat : Nat)) ?_ fun st => rfl
    unfold getNextU8
    exact DecAt.byte (DecAt.pure _)
  | @resultOk ty a e r b hsh _ ih =>
    obtain ⟨ha, he⟩ : (44 : UInt8) ∉ a ∧ (44 : UInt8) ∉ e := (hw _ _ hsh).2
    obtain ⟨cls, s, s', hD, hE, t, rfl, e1, e2⟩ | ⟨h, _⟩ := hs _ _ hsh
    swap
    · cases h
    exact (C24_result_partial env ctx ty t s a e hD e1 ha he).1 b r [] (ih (by simp at hlen; omega))
  | @resultErr ty a e r b hsh _ ih =>
    obtain ⟨ha, he⟩ : (44 : UInt8) ∉ a ∧ (44 : UInt8) ∉ e := (hw _ _ hsh).2
    obtain ⟨cls, s, s', hD, hE, t, rfl, e1, e2⟩ | ⟨h, _⟩ := hs _ _ hsh
    swap
    · cases h
    exact (C24_result_partial env ctx ty t s a e hD e1 ha he).2.1 b r [] (ih (by simp at hlen; omega))

/-- If the shapes determine the values, the decoder takes a byte string, and returns a value for it, exactly if the two are in the
language. -/
theorem C119_exact (env : Env) (ctx : Ctx) (ectx : ECtx) (shape : Str → Shape Str → Prop) (hL : LenOK env ctx)
    (hs : Describes env ctx ectx shape) (hw : Whole shape) (hli : AllListed env ctx shape) (hset : Determined env ctx shape) (ty : Str)
    (sh : Shape Str) (hsh : shape ty sh) (st : St) (hst : SaneAt st) (b : Str) (r : Val) :
    Leaves env ctx ty st b r ↔ Accepts shape (fun _ _ _ => True) ty r b ∧ ∃ x suf, st.cur.data.drop st.cur.off = b ++ x :: suf := by
  constructor
  · intro h
    refine ⟨C116_accepted env ctx ectx shape hL hs hw hli ty sh st b r hsh hst h, ?_⟩
    obtain ⟨n, st', h1, h2, rfl⟩ := h
    obtain ⟨c, t, _⟩ := decoded_accepted hL hs hw hli n ty sh st st' r hsh hst h1 h2
    rw [t.bytes]
    obtain ⟨t1, t2, suf, t3⟩ := t
    cases suf with
    | nil =>
      have := congrArg List.length t3
      rw [List.length_drop, List.append_nil] at this
      rw [t1] at h2
      omega
    | cons x suf => exact ⟨x, suf, t3⟩
  · rintro ⟨h, x, suf, hd⟩
    have hin : st.cur.off ≤ st.cur.data.length := hst.1
    have hlen := congrArg List.length hd
    rw [List.length_drop, List.length_append, List.length_cons] at hlen
    have hsz := hst.2
    obtain ⟨N, hN⟩ := C119_decoded env ctx ectx shape (fun _ _ _ => True) hL hs hw (fun ty sh r b hsh _ hl => hset ty sh r b hsh hl) ty r b h (by omega)
    have htl : (st.cur.data.take st.cur.off).length = st.cur.off := by rw [List.length_take]; omega
    have := hN N (Nat.le_refl _) (st.cur.data.take st.cur.off) (x :: suf) st.calls (by rw [htl]; simp; omega)
    rw [← hd, List.take_append_drop, htl] at this
    refine ⟨N, _, this, ?_, ?_⟩
    · dsimp only
      omega
    · dsimp only
      rw [Spec.slice, hd, Nat.add_sub_cancel_left, List.take_left]

/-- Trees are settled. -/
theorem tree_settled (env : Env) (ctx : Ctx) : Determined env ctx treeShape := by
  intro ty sh r b h _
  simp only [treeShape, tableShape, List.mem_cons, List.not_mem_nil, or_false, Prod.mk.injEq] at h
  rcases h with ⟨_, rfl⟩ | ⟨_, rfl⟩ | ⟨_, rfl⟩ <;> exact .inl trivial

/-- A tree whose number of children takes two bytes is decoded. -/
example : Leaves (treeEnv dummyExt) ⟨[], 0, none⟩ b!"Tree" ⟨⟨[5, 7, 0, 1, 0, 9, 9], 1⟩, []⟩ [7, 0, 1, 0] (leafOut 7) := by
  refine (C119_exact (treeEnv dummyExt) ⟨[], 0, none⟩ ECtx.none treeShape ⟨[], by unfold Resolves; kernel_rfl⟩ (tree_describes dummyExt)
    tree_whole (fun ty vs h => by simp [treeShape, tableShape] at h) (tree_settled _ _) b!"Tree"
    (.struct [(b!"v", b!"u16"), (b!"kids", b!"Vec<Tree>")]) (by simp only [treeShape, tableShape]; exact List.mem_cons_self) _
    ⟨show _ ≤ _ by decide, by decide⟩ _ _).2 ⟨?_, 9, [9], rfl⟩
  refine Accepts.struct (shape := treeShape) (ty := b!"Tree")
    [⟨b!"v", b!"u16", .nil, .uint 2 7, [7, 0]⟩, ⟨b!"kids", b!"Vec<Tree>", .nil, .nilSlice, [1, 0]⟩]
    (by simp [tableShape, treeShape, fieldTypes]) ?_
  intro p hp
  simp only [List.mem_cons, List.not_mem_nil, or_false] at hp
  rcases hp with rfl | rfl
  · exact .leaf (sh := .uint 2) (by simp [tableShape, treeShape]) ⟨rfl, rfl⟩ trivial
  · exact Accepts.seq (el := b!"Tree") (c := [1, 0]) [] (by simp [tableShape, treeShape]) ⟨1, [0], rfl, by decide⟩ (by decide) (by decide) (by simp)
      trivial

end ScaleGo
