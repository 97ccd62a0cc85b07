import Verif.Props.C104
import Verif.Props.C25
import Verif.Props.C52

/-! # C106: pre-runtime digests of Babe and Aura

English claim: the pre-runtime digest with which the author of a block states its slot is read, with the types `RawAuraPreDigest` and `RawBabePreDigest`, as the slot and,
for Babe, the index of the authority and the output and proof of its random function. -/

namespace ScaleGo
open _root_.Spec (leBytes hexText hexShown)
open ScaleGo.Spec

namespace Spec

/-- Pre-runtime digests of Babe (primitives/consensus/babe/src/digests.rs). -/
inductive BabeDigest
  | primary (authority slot : Nat) (output proof : Str)
  | secondary (authority slot : Nat)
  | vrf (authority slot : Nat) (output proof : Str)

/-- Their bytes: indices of 32 bits, slots of 64 bits, outputs of 32 bytes and proofs of 64 bytes. -/
def BabeDigest.Bytes : BabeDigest → Str → Prop
  | .primary a s o p, b => a < 2 ^ 32 ∧ s < 2 ^ 64 ∧ o.length = 32 ∧ p.length = 64 ∧ b = 1 :: (leBytes 4 a ++ leBytes 8 s ++ o ++ p)
  | .secondary a s, b => a < 2 ^ 32 ∧ s < 2 ^ 64 ∧ b = 2 :: (leBytes 4 a ++ leBytes 8 s)
  | .vrf a s o p, b => a < 2 ^ 32 ∧ s < 2 ^ 64 ∧ o.length = 32 ∧ p.length = 64 ∧ b = 3 :: (leBytes 4 a ++ leBytes 8 s ++ o ++ p)

/-- What has to be shown, at least, by kind; byte strings as hexadecimal digits or as text. -/
def BabeDigest.fields (show' : Str → Val) : BabeDigest → Str × List (Str × Val)
  | .primary a s o p => (b!"Primary", [(b!"authorityIndex", .uint 4 a), (b!"slotNumber", .uint 8 s), (b!"vrfOutput", show' o), (b!"vrfProof", show' p)])
  | .secondary a s => (b!"Secondary", [(b!"authorityIndex", .uint 4 a), (b!"slotNumber", .uint 8 s)])
  | .vrf a s o p => (b!"VRF", [(b!"authorityIndex", .uint 4 a), (b!"slotNumber", .uint 8 s), (b!"vrfOutput", show' o), (b!"vrfProof", show' p)])

end Spec

/-- The full claim. -/
def C106Claim : Prop :=
  (∀ (ext : Ext) (ctx : Ctx) (slot : Nat), slot < 2 ^ 64 →
    Decodes (loadedEnv ext) ctx b!"RawAuraPreDigest" (leBytes 8 slot) (.map [(b!"slotNumber", .uint 8 slot)]) []) ∧
  ∀ (ext : Ext) (ctx : Ctx) (d : BabeDigest) (b : Str), d.Bytes b → ∃ show' ∈ [hexShown, textShown], ∃ l, (∀ p ∈ (d.fields show').2, p ∈ l) ∧
    Decodes (loadedEnv ext) ctx b!"RawBabePreDigest" b (.map [((d.fields show').1, .map l)]) []

variable (ext : Ext) (m : Str)

theorem babe_variant (i : Nat) {name u b : Str} {v : Val} (ht : babeVariants[i]? = some (name, u)) (hne : u ≠ []) (hrows : hasPrefix u b!"[[" = false)
    (h : Shows ext m u b v) : Shows ext m b!"RawBabePreDigest" (UInt8.ofNat i :: b) (.map [(name, v)]) :=
  (shows_variant ext i (s := []) (tm := babeVariants) (found_all (by decide)) (not_cLike (by decide)) (by decide) (by decide) ht hne hrows).1 h

theorem shows_u8s {t : Str} {n : Nat} {b : Str} (hb : b.length = n) (h : Found m t (.fixedU8 n) []) : Shows ext m t b (textShown b) := by
  intro spec md
  subst hb
  have := C25_decode_u8 (loadedEnv ext) ⟨m, spec, md⟩ t [] [] b (.fixedU8 b.length) (.inl rfl) (digest_resolves ext h _)
  rwa [shown_text] at this

/-- Slots of Aura are read. -/
theorem C106_aura (ctx : Ctx) (slot : Nat) (h : slot < 2 ^ 64) :
    Decodes (loadedEnv ext) ctx b!"RawAuraPreDigest" (leBytes 8 slot) (.map [(b!"slotNumber", .uint 8 slot)]) [] := by
  obtain ⟨m, spec, md⟩ := ctx
  have hx := shows_uint (m := m) ext (t := b!"u64") (w := 8) (n := slot) (by simp) h (found_all (by decide))
  have hf : Found m b!"RawAuraPreDigest" (.struct (some [(b!"slotNumber", b!"u64")])) [] := found_all (by decide)
  have := C22_decode (loadedEnv ext) ⟨m, spec, md⟩ b!"RawAuraPreDigest" [] [⟨b!"slotNumber", b!"u64", .uint 8 slot, leBytes 8 slot, []⟩] (by simp)
    (digest_resolves ext hf _) (by simpa using hx.1 spec md)
  simpa [bytesOf, valuesOf, callsOf] using this

/-- Digests of secondary slots with a random function are read. -/
theorem C106_partial (ctx : Ctx) (a s : Nat) (o p b : Str) (h : (BabeDigest.vrf a s o p).Bytes b) :
    Decodes (loadedEnv ext) ctx b!"RawBabePreDigest" b (.map [(b!"VRF", .map [(b!"authorityIndex", .uint 4 a), (b!"slotNumber", .uint 8 s),
      (b!"vrfOutput", textShown o), (b!"vrfProof", textShown p)])]) [] := by
  obtain ⟨m, spec, md⟩ := ctx
  obtain ⟨ha, hs, ho, hp, rfl⟩ := h
  have h1 := shows_uint (m := m) ext (t := b!"u32") (w := 4) (n := a) (by simp) ha (found_all (by decide))
  have h2 := shows_uint (m := m) ext (t := b!"SlotNumber") (w := 8) (n := s) (by simp) hs (found_all (by decide))
  have h3 := shows_u8s ext m (t := b!"VrfData") ho (found_all (by decide))
  have h4 := shows_u8s ext m (t := b!"VrfProof") hp (found_all (by decide))
  have hf : Found m b!"RawBabePreDigestSecondaryVRF" (.struct (some [(b!"authorityIndex", b!"u32"), (b!"slotNumber", b!"SlotNumber"), (b!"vrfOutput", b!"VrfData"),
      (b!"vrfProof", b!"VrfProof")])) [] := found_all (by decide)
  refine babe_variant ext m 3 (by rfl) (by decide) (by decide) (fun spec md => ?_) spec md
  have := C22_decode (loadedEnv ext) ⟨m, spec, md⟩ b!"RawBabePreDigestSecondaryVRF" [] [⟨b!"authorityIndex", b!"u32", .uint 4 a, leBytes 4 a, []⟩,
    ⟨b!"slotNumber", b!"SlotNumber", .uint 8 s, leBytes 8 s, []⟩, ⟨b!"vrfOutput", b!"VrfData", textShown o, o, []⟩,
    ⟨b!"vrfProof", b!"VrfProof", textShown p, p, []⟩] (by simp) (digest_resolves ext hf _) (by
      simp only [List.mem_cons, List.not_mem_nil, or_false, forall_eq_or_imp, forall_eq]
      exact ⟨h1.1 spec md, h2.1 spec md, h3 spec md, h4 spec md⟩)
  simpa [bytesOf, valuesOf, callsOf, List.append_assoc] using this

/-- Digests of secondary slots are read with a weight, as early versions of Babe had it: four bytes that are no longer there. -/
theorem C106_secondary (ctx : Ctx) (a s w : Nat) (ha : a < 2 ^ 32) (hs : s < 2 ^ 64) (hw : w < 2 ^ 32) :
    Decodes (loadedEnv ext) ctx b!"RawBabePreDigest" (2 :: (leBytes 4 a ++ leBytes 8 s ++ leBytes 4 w))
      (.map [(b!"Secondary", .map [(b!"authorityIndex", .uint 4 a), (b!"slotNumber", .uint 8 s), (b!"weight", .uint 4 w)])]) [] := by
  obtain ⟨m, spec, md⟩ := ctx
  have h1 := shows_uint (m := m) ext (t := b!"u32") (w := 4) (n := a) (by simp) ha (found_all (by decide))
  have h2 := shows_uint (m := m) ext (t := b!"SlotNumber") (w := 8) (n := s) (by simp) hs (found_all (by decide))
  have h3 := shows_uint (m := m) ext (t := b!"BabeBlockWeight") (w := 4) (n := w) (by simp) hw (found_all (by decide))
  have hf : Found m b!"RawBabePreDigestSecondary" (.struct (some [(b!"authorityIndex", b!"u32"), (b!"slotNumber", b!"SlotNumber"),
    (b!"weight", b!"BabeBlockWeight")])) [] := found_all (by decide)
  refine babe_variant ext m 2 (by rfl) (by decide) (by decide) (fun spec md => ?_) spec md
  have := C22_decode (loadedEnv ext) ⟨m, spec, md⟩ b!"RawBabePreDigestSecondary" [] [⟨b!"authorityIndex", b!"u32", .uint 4 a, leBytes 4 a, []⟩,
    ⟨b!"slotNumber", b!"SlotNumber", .uint 8 s, leBytes 8 s, []⟩, ⟨b!"weight", b!"BabeBlockWeight", .uint 4 w, leBytes 4 w, []⟩] (by simp)
    (digest_resolves ext hf _) (by
      simp only [List.mem_cons, List.not_mem_nil, or_false, forall_eq_or_imp, forall_eq]
      exact ⟨h1.1 spec md, h2.1 spec md, h3.1 spec md⟩)
  simpa [bytesOf, valuesOf, callsOf, List.append_assoc] using this

theorem primary_reads (ctx : Ctx) (a s w : Nat) (x y : Str) (ha : a < 2 ^ 32) (hs : s < 2 ^ 64) (hw : w < 2 ^ 32) (hx : x.length = 32)
    (hy : y.length = 32) :
    Decodes (loadedEnv ext) ctx b!"RawBabePreDigest" (1 :: (leBytes 4 a ++ leBytes 8 s ++ leBytes 4 w ++ x ++ y))
      (.map [(b!"Primary", .map [(b!"authorityIndex", .uint 4 a), (b!"slotNumber", .uint 8 s), (b!"weight", .uint 4 w), (b!"vrfOutput", hexShown x),
        (b!"vrfProof", hexShown y)])]) [] := by
  obtain ⟨m, spec, md⟩ := ctx
  have h1 := shows_uint (m := m) ext (t := b!"u32") (w := 4) (n := a) (by simp) ha (found_all (by decide))
  have h2 := shows_uint (m := m) ext (t := b!"SlotNumber") (w := 8) (n := s) (by simp) hs (found_all (by decide))
  have h3 := shows_uint (m := m) ext (t := b!"BabeBlockWeight") (w := 4) (n := w) (by simp) hw (found_all (by decide))
  have h4 := shows_hash (m := m) ext (t := b!"H256") hx (found_all (by decide))
  have h5 := shows_hash (m := m) ext (t := b!"H256") hy (found_all (by decide))
  have hf : Found m b!"RawBabePreDigestPrimary" (.struct (some [(b!"authorityIndex", b!"u32"), (b!"slotNumber", b!"SlotNumber"),
    (b!"weight", b!"BabeBlockWeight"), (b!"vrfOutput", b!"H256"), (b!"vrfProof", b!"H256")])) [] := found_all (by decide)
  refine babe_variant ext m 1 (by rfl) (by decide) (by decide) (fun spec md => ?_) spec md
  have := C22_decode (loadedEnv ext) ⟨m, spec, md⟩ b!"RawBabePreDigestPrimary" [] [⟨b!"authorityIndex", b!"u32", .uint 4 a, leBytes 4 a, []⟩,
    ⟨b!"slotNumber", b!"SlotNumber", .uint 8 s, leBytes 8 s, []⟩, ⟨b!"weight", b!"BabeBlockWeight", .uint 4 w, leBytes 4 w, []⟩,
    ⟨b!"vrfOutput", b!"H256", hexShown x, x, []⟩, ⟨b!"vrfProof", b!"H256", hexShown y, y, []⟩] (by simp)
    (digest_resolves ext hf _) (by
      simp only [List.mem_cons, List.not_mem_nil, or_false, forall_eq_or_imp, forall_eq]
      exact ⟨h1.1 spec md, h2.1 spec md, h3.1 spec md, h4.1 spec md, h5.1 spec md⟩)
  simpa [bytesOf, valuesOf, callsOf, List.append_assoc] using this

/-- Digests of primary slots are read with a weight, as early versions had it, and with a proof of 32 bytes: the first four bytes of the output are taken for the weight,
the output is shown four bytes off, and of the proof only 32 bytes are shown; 28 bytes are left unread. -/
theorem C106_primary (ctx : Ctx) (a s : Nat) (o p b : Str) (h : (BabeDigest.primary a s o p).Bytes b) :
    Decodes (loadedEnv ext) ctx b!"RawBabePreDigest" (b.take 81) (.map [(b!"Primary", .map [(b!"authorityIndex", .uint 4 a), (b!"slotNumber", .uint 8 s),
      (b!"weight", .uint 4 (leNat (o.take 4))), (b!"vrfOutput", hexShown (o.drop 4 ++ p.take 4)), (b!"vrfProof", hexShown ((p.drop 4).take 32))])]) [] ∧
    b.length = 109 := by
  obtain ⟨ha, hs, ho, hp, rfl⟩ := h
  have e : (1 :: (leBytes 4 a ++ leBytes 8 s ++ o ++ p)).take 81 =
      1 :: (leBytes 4 a ++ leBytes 8 s ++ leBytes 4 (leNat (o.take 4)) ++ (o.drop 4 ++ p.take 4) ++ (p.drop 4).take 32) := by
    have h4 : leBytes 4 (leNat (o.take 4)) = o.take 4 := by
      have := lePut_leNat (o.take 4)
      rw [lePut_eq_spec] at this
      simpa [ho] using this
    rw [h4, List.take_succ_cons]
    congr 1
    have e1 : leBytes 4 a ++ leBytes 8 s ++ o.take 4 ++ (o.drop 4 ++ p.take 4) ++ (p.drop 4).take 32 = leBytes 4 a ++ leBytes 8 s ++ o ++ p.take 36 := by
      have : p.take 36 = p.take 4 ++ (p.drop 4).take 32 := by rw [← List.take_add]
      rw [this]
      nth_rw 3 [← List.take_append_drop 4 o]
      simp only [List.append_assoc]
    rw [e1, List.take_append, List.take_of_length_le (by simp [leBytes, ho])]
    simp [leBytes, ho]
  rw [e]
  refine ⟨primary_reads ext ctx a s _ _ _ ha hs ?_ (by simp [ho, hp]) (by simp [hp]), by simp [leBytes, ho, hp]⟩
  have := leNat_lt (o.take 4)
  simpa [ho] using this

/-! ## At the end of the data -/

theorem procFields_append (rec : Rec) (ctx : Ctx) (l k : List (Str × Str)) (acc : List (Str × Val)) (st : St) :
    procFields rec ctx (l ++ k) acc st = procFields rec ctx l acc st >>= fun q => procFields rec ctx k q.1 q.2 := by
  induction l generalizing acc st with
  | nil => rfl
  | cons p l ih =>
    obtain ⟨n, t⟩ := p
    simp only [List.cons_append, procFields]
    cases rec ctx t st with
    | ok q => simp only [Res.ok_bind, ih]
    | panic => rfl
    | diverge => rfl

/-- A struct whose last field is at the end of the data. -/
theorem struct_at_end {env : Env} {ctx : Ctx} {ty sub : Str} (fs : List Field) (f : Field) (hd : ((fs ++ [f]).map (·.name)).Nodup)
    (h : Resolves env ctx.module ctx.spec ty (.struct (some (declOf (fs ++ [f])))) sub) (hi : ∀ g ∈ fs, Decodes env ctx g.ty g.bytes g.val [])
    (hc : ∀ g ∈ fs, g.calls = []) (he : DecodesAtEnd env ctx f.ty f.bytes f.val) :
    DecodesAtEnd env ctx ty (bytesOf (fs ++ [f])) (.map (valuesOf (fs ++ [f]))) := by
  obtain ⟨N, hN⟩ := uniform_bound fs (P := fun (f : Field) n => DecAt (pau env n ctx f.ty) f.bytes f.val f.calls) fun g hg => by
    rw [hc g hg]; exact hi g hg
  obtain ⟨M, hM⟩ := he
  refine ⟨max N M + 1, fun n hn pre cs hl => ?_⟩
  obtain ⟨n, rfl⟩ : ∃ k, n = k + 1 := ⟨n - 1, by omega⟩
  rw [pau_resolves n _ h]
  have hb : bytesOf (fs ++ [f]) = bytesOf fs ++ f.bytes := by simp [bytesOf]
  have h1 := decAt_fields fs [] (by simpa using (List.nodup_append.1 (by simpa using hd)).1) (hN n (by omega)) pre f.bytes cs (by
    rw [hb, List.length_append] at hl; omega)
  have hcs : callsOf fs = [] := by
    rw [callsOf, List.flatten_eq_nil_iff]
    intro x hx
    obtain ⟨g, hg, rfl⟩ := List.mem_map.1 hx
    exact hc g hg
  have h2 := hM n (by omega) (pre ++ bytesOf fs) cs (by rw [hb, List.length_append] at hl; rw [List.length_append]; omega)
  show processStruct (pau env n) ctx (some (declOf (fs ++ [f]))) _ = _
  unfold processStruct
  have hdec : declOf (fs ++ [f]) = declOf fs ++ [(f.name, f.ty)] := by simp [declOf]
  simp only [hdec, Option.getD_some, procFields_append, hb]
  rw [h1, hcs]
  have hnew : f.name ∉ (valuesOf fs).map Prod.fst := by
    have : (fs.map (·.name) ++ [f.name]).Nodup := by simpa using hd
    intro hm
    have hm' : f.name ∈ fs.map (·.name) := by simpa [valuesOf, Function.comp_def] using hm
    exact (List.nodup_append.1 this).2.2 _ hm' _ (by simp) rfl
  simp only [Res.ok_bind, List.append_nil, List.nil_append, procFields]
  rw [← List.append_assoc, ← List.length_append, h2]
  simp only [Res.ok_bind, mapSet_new _ hnew]
  simp [valuesOf, List.append_assoc]

/-- A variant whose contents are at the end of the data. -/
theorem variant_at_end {env : Env} {ctx : Ctx} {ty sub : Str} {vs : List Str} {tm : List (Str × Str)} {i : UInt8} {name t b : Str} {v : Val} (hnc : ¬ CLike tm)
    (ht : tm[i.toNat]? = some (name, t)) (hne : t ≠ []) (hrows : ¬ LooksLikeRows t) (h : Resolves env ctx.module ctx.spec ty (.enum vs (some tm)) sub)
    (hi : DecodesAtEnd env ctx t b v) : DecodesAtEnd env ctx ty (i :: b) (.map [(name, v)]) := by
  obtain ⟨N, hN⟩ := hi
  refine ⟨N + 1, fun n hn pre cs hl => ?_⟩
  obtain ⟨n, rfl⟩ : ∃ k, n = k + 1 := ⟨n - 1, by omega⟩
  rw [List.length_cons] at hl
  rw [pau_resolves n _ h]
  show processEnum env.ext (pau env n) ctx vs (some tm) _ = _
  have h5 := hN n (by omega) (pre ++ [i]) cs (by rw [List.length_append, List.length_singleton]; omega)
  unfold processEnum
  rw [show pre ++ i :: b = pre ++ ([i] ++ b) by simp, nextBytes_at pre [i] b cs 1 rfl (by rw [List.length_singleton]; omega)]
  simp only [Res.ok_bind, List.headD_cons, isCLike_false hnc, Bool.false_eq_true, if_false, ht, if_neg hne, variantRows_none env.ext hrows]
  rw [show pre ++ ([i] ++ b) = pre ++ [i] ++ b by simp, show pre.length + [i].length = (pre ++ [i]).length by simp, h5]
  rfl

/-- Digests of secondary slots that end the data, as they do when the data of the digest item is read on its own, are read with a weight of 0 besides. -/
theorem C106_secondary_at_end (ctx : Ctx) (a s : Nat) (b : Str) (h : (BabeDigest.secondary a s).Bytes b) :
    DecodesAtEnd (loadedEnv ext) ctx b!"RawBabePreDigest" b
      (.map [(b!"Secondary", .map [(b!"authorityIndex", .uint 4 a), (b!"slotNumber", .uint 8 s), (b!"weight", .uint 4 0)])]) := by
  obtain ⟨m, spec, md⟩ := ctx
  obtain ⟨ha, hs, rfl⟩ := h
  have h1 := shows_uint (m := m) ext (t := b!"u32") (w := 4) (n := a) (by simp) ha (found_all (by decide))
  have h2 := shows_uint (m := m) ext (t := b!"SlotNumber") (w := 8) (n := s) (by simp) hs (found_all (by decide))
  have hw : Found m b!"BabeBlockWeight" .u32 [] := found_all (by decide)
  have hf : Found m b!"RawBabePreDigestSecondary" (.struct (some [(b!"authorityIndex", b!"u32"), (b!"slotNumber", b!"SlotNumber"),
    (b!"weight", b!"BabeBlockWeight")])) [] := found_all (by decide)
  have hr : Found m b!"RawBabePreDigest" (.enum [] (some babeVariants)) [] := found_all (by decide)
  have h3 : DecodesAtEnd (loadedEnv ext) ⟨m, spec, md⟩ b!"BabeBlockWeight" [] (.uint 4 0) := by
    obtain ⟨v, hv, hd⟩ := C52_partial (loadedEnv ext) ⟨m, spec, md⟩ b!"BabeBlockWeight" [] 4 0 0 (by simp) (by decide) (by decide) (by simp)
      (digest_resolves ext hw _)
    obtain rfl : v = .uint 4 0 := by simpa [UnsignedValue, uintValue] using hv
    exact hd
  have h4 := struct_at_end (env := loadedEnv ext) (ctx := ⟨m, spec, md⟩) (ty := b!"RawBabePreDigestSecondary") (sub := [])
    [⟨b!"authorityIndex", b!"u32", .uint 4 a, leBytes 4 a, []⟩, ⟨b!"slotNumber", b!"SlotNumber", .uint 8 s, leBytes 8 s, []⟩]
    ⟨b!"weight", b!"BabeBlockWeight", .uint 4 0, [], []⟩ (by simp) (digest_resolves ext hf _) (by
      simp only [List.mem_cons, List.not_mem_nil, or_false, forall_eq_or_imp, forall_eq]
      exact ⟨h1.1 spec md, h2.1 spec md⟩) (by simp) h3
  simp only [bytesOf, valuesOf, List.cons_append, List.nil_append, List.map_cons, List.map_nil, List.flatten_cons, List.flatten_nil, List.append_nil] at h4
  exact variant_at_end (i := 2) (not_cLike (by decide)) (by rfl) (by decide) (rows_not (by decide)) (digest_resolves ext hr _) h4

theorem C106_claim_false : ¬ C106Claim := by
  intro hc
  obtain ⟨f, -, l, -, N, h1⟩ := hc.2 dummyExt ⟨[], 0, none⟩ (.secondary 0 0) (2 :: (leBytes 4 0 ++ leBytes 8 0)) ⟨by decide, by decide, rfl⟩
  obtain ⟨M, h2⟩ := C106_secondary dummyExt ⟨[], 0, none⟩ 0 0 0 (by decide) (by decide) (by decide)
  have e1 := h1 (max N M) (by omega) [] (leBytes 4 0) [] (by decide)
  have e2 := h2 (max N M) (by omega) [] [] [] (by decide)
  simp only [List.nil_append, List.append_nil, List.cons_append] at e1 e2
  rw [e1] at e2
  injection e2 with e2
  have := congrArg (fun q : Val × St => q.2.cur.off) e2
  simp [leBytes] at this

/-- The slot of a digest of 2023, and a digest of a secondary slot with random function. -/
example (ctx : Ctx) : Decodes (loadedEnv ext) ctx b!"RawAuraPreDigest" [0x8f, 0x6e, 0x65, 0x10, 0, 0, 0, 0] (.map [(b!"slotNumber", .uint 8 0x10656e8f)]) [] ∧
    (BabeDigest.vrf 7 0x10656e8f (List.replicate 32 0xa1) (List.replicate 64 0xb2)).Bytes
      (3 :: ([7, 0, 0, 0] ++ [0x8f, 0x6e, 0x65, 0x10, 0, 0, 0, 0] ++ List.replicate 32 0xa1 ++ List.replicate 64 0xb2)) :=
  ⟨C106_aura ext ctx 0x10656e8f (by decide), by decide, by decide, by decide, by decide, by decide⟩

end ScaleGo
