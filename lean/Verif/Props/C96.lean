import Verif.Props.C95

/-! # C96: the extrinsics of a chain are read

English claim: once metadata of version 14 or 15 has been read, a signed extrinsic of the chain is read as its parts. The bytes are those
which the chain's node writes: length, version, signer, signature, the extensions in the order of the metadata, and the call. Extensions
without data have no bytes; the era, the nonce and the tip are extensions as well.

This is about bytes from elsewhere: C95 is about the bytes which the library writes itself, with the tip before all other extensions. -/

namespace ScaleGo
open _root_.Spec (Shape Scale WPallet PType PVariant WExtension)
open ScaleGo.Spec

/-! ## What the chain writes -/

/-- What an extension says. -/
inductive ExtSays
  | era (b : Str)
  | nonce (n : Nat)
  | tip (n : Nat)
  | data (r : Val)

/-- The extensions for the lifetime of an extrinsic. -/
def eraNames : List Str := [b!"CheckMortality", b!"CheckEra"]

/-- The bytes of one extension: an era is one or two bytes, nonce and tip are compact integers, all others are values of their type. -/
inductive ExtCoded (R : Nat → Shape Nat → Prop) (l : List (Nat × PType)) : WExtension → ExtSays → Str → Prop
  | era {x b} : keptText x.identifier ∈ eraNames → (b = [0] ∨ ∃ c d, c ≠ 0 ∧ b = [c, d]) → ExtCoded R l x (.era b) b
  | nonce {x n b} : keptText x.identifier = b!"CheckNonce" → n < 2 ^ 63 → _root_.Spec.IsCompact n b → ExtCoded R l x (.nonce n) b
  | tip {x n b} : keptText x.identifier = payment → n < 2 ^ 128 - 1 → _root_.Spec.IsCompact n b → ExtCoded R l x (.tip n) b
  | data {x v r b} : keptText x.identifier ∉ eraNames ++ [b!"CheckNonce", payment] → x.type < l.length →
      Scale R (SupportedBy fun _ => True) x.type v r b → ExtCoded R l x (.data r) b

/-- A signed extrinsic without its call: the values and bytes of signer and signature, the text of the signature, the version of the
extensions in extrinsics of version 5, and what every extension says with its bytes. -/
structure ChainSigned where
  signer : Val
  signerB : Str
  sig : Val
  sigText : Str
  sigB : Str
  extVersion : Option UInt8
  exts : List (WExtension × ExtSays × Str)

/-- The version byte. -/
def ChainSigned.version (q : ChainSigned) : UInt8 := if q.extVersion = none then 0x84 else 0x85

/-- The bytes of all extensions. -/
def extBytes (es : List (WExtension × ExtSays × Str)) : Str := (es.map fun e => e.2.2).flatten

/-- The bytes between version and call. -/
def ChainSigned.bytes (q : ChainSigned) : Str := q.signerB ++ q.sigB ++ q.extVersion.toList ++ extBytes q.exts

/-- The parts are encoded as the metadata demands. -/
structure ChainOK (R : Nat → Shape Nat → Prop) (l : List (Nat × PType)) (xs : List WExtension) (a s : Nat) (q : ChainSigned) : Prop where
  signer : ∃ v, Scale R (SupportedBy fun _ => True) a v q.signer q.signerB
  sig : ∃ v, Scale R (SupportedBy fun _ => True) s v q.sig q.sigB
  text : q.sig = .str q.sigText ∨ ∃ n, q.sig = .map [(n, .str q.sigText)]
  listed : q.exts.map (fun e => e.1) = xs
  coded : ∀ e ∈ q.exts, ExtCoded R l e.1 e.2.1 e.2.2

/-- The decoded signature tells what the extrinsic says. -/
structure Tells (q : ChainSigned) (s : Signed) : Prop where
  signer : s.signer = q.signer
  raw : s.signatureRaw = q.sig
  text : s.signature = q.sigText
  version : ∀ v, q.extVersion = some v → s.extVersion = v.toNat
  era : ∀ x b c, (x, .era b, c) ∈ q.exts → s.era = _root_.Spec.hexText b
  nonce : ∀ x (n : Nat) c, (x, .nonce n, c) ∈ q.exts → s.nonce = n
  tip : ∀ x (n : Nat) c, (x, .tip n, c) ∈ q.exts → s.tip = ((n : Int), 0)
  untipped : (∀ x n c, (x, ExtSays.tip n, c) ∉ q.exts) → s.tip = (0, 0)
  data : ∀ x r c, (x, .data r, c) ∈ q.exts → c ≠ [] → (keptText x.identifier, r) ∈ s.extensions
  nothingElse : ∀ n r, (n, r) ∈ s.extensions → ∃ x c, (x, .data r, c) ∈ q.exts ∧ keptText x.identifier = n

/-- The bytes `c ++ body`, where `c` is the length of `body`, are read to their end as a signed extrinsic with this call. -/
def IsRead (env : Env) (md : MD) (opt : ExtOpt) (q : ChainSigned) (i j : UInt8) (e : CallEntry) (items : List Item) : Prop :=
  ∀ c, _root_.Spec.IsCompact ([q.version] ++ q.bytes ++ [i, j] ++ (items.map (·.2.1)).flatten).length c →
    ∃ N, ∀ n, N ≤ n → ∃ x st s, decodeExtrinsic env n md opt (c ++ ([q.version] ++ q.bytes ++ [i, j] ++ (items.map (·.2.1)).flatten)) = .ok (x, st) ∧
      st.cur.off = st.cur.data.length ∧ x.length = ([q.version] ++ q.bytes ++ [i, j] ++ (items.map (·.2.1)).flatten).length ∧
      x.version = _root_.Spec.hexText [q.version] ∧ x.signed = some s ∧ Tells q s ∧ x.callCode = _root_.Spec.hexText [i, j] ∧
      x.callModule = e.moduleName ∧ x.callFunction = e.callName ∧
      x.params = (e.args.zip (items.map (·.1))).map (fun a => (a.1.1, a.1.2, a.2)) ∧
      x.paramsRaw = _root_.Spec.hexText (items.map (·.2.1)).flatten

/-- The signed extrinsics of the chain with calls of the pallets with `ok` are read. -/
def ReadsChain (R : Nat → Shape Nat → Prop) (l : List (Nat × PType)) (ps : List WPallet) (xs : List WExtension) (ok : WPallet → Prop)
    (okX : ExtOpt → List (WExtension × ExtSays × Str) → Prop) (ids : Nat → Option Str) (env : Env) (md : MD) (a s : Nat) : Prop :=
  ∀ x v i j as, IsCallOf l ps x v i j → ok x → Arguments R l v as → ∀ opt q, opt.module = [] → opt.signedExtensions = [] → ChainOK R l xs a s q →
    okX opt q.exts → q.bytes.length + (argBytes as).length < 2 ^ 61 → IsRead env md opt q i j (wireCall ids x v) (as.map Arg.item)

/-- V14 metadata that is understood, with the extrinsic of `sp_runtime`, serves the extrinsics of the chain. -/
def C96Claim : Prop :=
  ∀ (reg : RegState) (spec : Int) (md0 : Option MD) (l : List (Nat × PType)) (ps : List WPallet) (t v : Nat) (xs : List WExtension)
    (b : Str) (dup : Str → Nat) (A : Nat → Prop) (fuel : Nat) (st : SiState) (a s : Nat), SignReady reg → Written14 l ps t v xs b → Regular l ps →
    Understood l spec reg dup A fuel st → Named xs → Signing { wireCfg l spec with dup := dup } A l a s →
    ∃ out, Settles (fun n => processV14 n reg ⟨[], spec, md0⟩) b out ∧ DescribedOut true l ps xs st.ids out ∧ ∀ md, UsesAll md out →
      ReadsChain (Covered { wireCfg l spec with dup := dup } A) l ps xs (fun x => Untouched { wireCfg l spec with dup := dup } (keptText x.name))
        (fun opt _ => opt.additionalCheck = []) st.ids out.reg.env md a s

/-! ## What holds -/

/-- Which extensions the reader gets right: first one for the era, then one for the nonce, with no data before or between them; then all
extensions with data are among those which the reader knows or is told to read, and no other era or nonce follows. -/
def InOrder (opt : ExtOpt) (es : List (WExtension × ExtSays × Str)) : Prop :=
  ∃ pre xe be mid xn n bn post, es = pre ++ (xe, .era be, be) :: (mid ++ (xn, .nonce n, bn) :: post) ∧
    (∀ e ∈ pre ++ (xe, .era be, be) :: (mid ++ [(xn, .nonce n, bn)]), ¬ Enabled opt (keptText e.1.identifier)) ∧
    (∀ e ∈ pre ++ mid, e.2.2 = [] ∧ ∃ r, e.2.1 = .data r) ∧
    ∀ e ∈ post, (Enabled opt (keptText e.1.identifier) ∧ ∃ m, e.2.1 = .tip m) ∨
      (Enabled opt (keptText e.1.identifier) ∨ e.2.2 = []) ∧ ∃ r, e.2.1 = .data r

/-- The tip as read, starting from `t`. -/
def tipAfter (t : Int × Int) : List (WExtension × ExtSays × Str) → Int × Int
  | [] => t
  | (_, .tip m, _) :: es => tipAfter ((m : Int), 0) es
  | _ :: es => tipAfter t es

/-- The extensions as read. -/
def dataAfter (opt : ExtOpt) : List (WExtension × ExtSays × Str) → List (Str × Val)
  | [] => []
  | (x, .data r, _) :: es => if Enabled opt (keptText x.identifier) then (keptText x.identifier, r) :: dataAfter opt es else dataAfter opt es
  | _ :: es => dataAfter opt es

theorem dataAfter_names {opt : ExtOpt} : ∀ es : List (WExtension × ExtSays × Str),
    ((dataAfter opt es).map (·.1)).Sublist (es.map fun e => keptText e.1.identifier)
  | [] => List.Sublist.refl _
  | (x, .data r, _) :: es => by
    unfold dataAfter
    split
    · exact (dataAfter_names es).cons_cons _
    · exact (dataAfter_names es).cons _
  | (_, .era _, _) :: es => (dataAfter_names es).cons _
  | (_, .nonce _, _) :: es => (dataAfter_names es).cons _
  | (_, .tip _, _) :: es => (dataAfter_names es).cons _

/-- Reading the extensions of the metadata, the tip at any place. -/
theorem decAt_metaExts_any {ext : Ext} {rec : Rec} {ctx : Ctx} {opt : ExtOpt} {ids : Nat → Option Str} :
    ∀ (es : List (WExtension × ExtSays × Str)) (tip : Int × Int) (acc : List (Str × Val)),
    (∀ e ∈ es, ¬ Enabled opt (keptText e.1.identifier) → e.2.2 = [] ∧ ∃ r, e.2.1 = .data r) →
    (∀ e ∈ es, Enabled opt (keptText e.1.identifier) →
      (∃ m : Nat, e.2.1 = .tip m ∧ keptText e.1.identifier = payment ∧ DecAt (readTip ext rec ctx) e.2.2 ((m : Int), 0) []) ∨
      ∃ r, e.2.1 = .data r ∧ keptText e.1.identifier ≠ payment ∧ DecAt (rec ctx (siText ids e.1.type)) e.2.2 r []) →
    (acc.map (·.1) ++ es.map (fun e => keptText e.1.identifier)).Nodup →
    DecAt (readMetaExts ext rec ctx opt.additionalCheck (es.map fun e => (keptText e.1.identifier, siText ids e.1.type)) tip acc) (extBytes es)
      (tipAfter tip es, acc ++ dataAfter opt es) [] := by
  intro es
  induction es with
  | nil =>
    intro tip acc _ _ _
    simpa [readMetaExts, extBytes, tipAfter, dataAfter] using DecAt.pure (tip, acc)
  | cons e es ih =>
    intro tip acc h1 h2 hn
    obtain ⟨x, w, b⟩ := e
    have hb : extBytes ((x, w, b) :: es) = b ++ extBytes es := by simp [extBytes]
    have k1 : ∀ e ∈ es, _ := fun e he => h1 e (List.mem_cons_of_mem _ he)
    have k2 : ∀ e ∈ es, _ := fun e he => h2 e (List.mem_cons_of_mem _ he)
    rw [hb, List.map_cons]
    by_cases hE : Enabled opt (keptText x.identifier)
    · rcases h2 _ List.mem_cons_self hE with ⟨m, e1, e2, e3⟩ | ⟨r, e1, e2, e3⟩
      · dsimp only at e1 e2 e3
        subst e1
        have k := ih ((m : Int), 0) acc k1 k2 (hn.sublist (by
          rw [List.map_cons]
          exact (List.Sublist.refl _).append (List.sublist_cons_self _ _)))
        have e : readMetaExts ext rec ctx opt.additionalCheck ((keptText x.identifier, siText ids x.type) ::
            es.map fun e => (keptText e.1.identifier, siText ids e.1.type)) tip acc = fun st => readTip ext rec ctx st >>= fun p =>
            readMetaExts ext rec ctx opt.additionalCheck (es.map fun e => (keptText e.1.identifier, siText ids e.1.type)) p.1 acc p.2 := by
          funext st
          rw [readMetaExts, if_pos ((enabled_iff opt _).2 hE), if_pos (show keptText x.identifier = b!"ChargeTransactionPayment" from e2)]
        rw [e]
        exact DecAt.step0 e3 k
      · dsimp only at e1 e2 e3
        subst e1
        have hfresh : keptText x.identifier ∉ acc.map (·.1) := by
          intro hm
          rw [List.map_cons, List.nodup_append] at hn
          exact hn.2.2 _ hm _ List.mem_cons_self rfl
        have k := ih tip (acc ++ [(keptText x.identifier, r)]) k1 k2 (by simpa using hn)
        have e : readMetaExts ext rec ctx opt.additionalCheck ((keptText x.identifier, siText ids x.type) ::
            es.map fun e => (keptText e.1.identifier, siText ids e.1.type)) tip acc = fun st => rec ctx (siText ids x.type) st >>= fun p =>
            readMetaExts ext rec ctx opt.additionalCheck (es.map fun e => (keptText e.1.identifier, siText ids e.1.type)) tip
              (mapSet acc (keptText x.identifier) p.1) p.2 := by
          funext st
          rw [readMetaExts, if_pos ((enabled_iff opt _).2 hE), if_neg (show ¬ keptText x.identifier = b!"ChargeTransactionPayment" from e2)]
        rw [e]
        refine DecAt.step0 e3 ?_
        dsimp only
        rw [mapSet_fresh hfresh]
        simpa [dataAfter, tipAfter, if_pos hE] using k
    · obtain ⟨e1, r, e2⟩ := h1 _ List.mem_cons_self hE
      dsimp only at e1 e2
      subst e1 e2
      have e : readMetaExts ext rec ctx opt.additionalCheck ((keptText x.identifier, siText ids x.type) ::
          es.map fun e => (keptText e.1.identifier, siText ids e.1.type)) tip acc =
          readMetaExts ext rec ctx opt.additionalCheck (es.map fun e => (keptText e.1.identifier, siText ids e.1.type)) tip acc := by
        funext st
        rw [readMetaExts, if_neg (fun h => hE ((enabled_iff opt _).1 h))]
      rw [e, List.nil_append]
      have k := ih tip acc k1 k2 (hn.sublist (by
        rw [List.map_cons]
        exact (List.Sublist.refl _).append (List.sublist_cons_self _ _)))
      simpa [dataAfter, tipAfter, if_neg hE] using k

/-- Reading the signed part of version 5. -/
theorem decAt_signed5 {env : Env} {rec : Rec} {ctx : Ctx} {md : MD} {opt : ExtOpt} {signer sig : Val} {signerB sigB sigText evB eraB nonceB b : Str}
    {era : Str} {nonce ev : Int} {tip : Int × Int} {exts : List (Str × Val)}
    (h1 : DecAt (rec ctx (signerType env md)) signerB signer []) (h2 : DecAt (rec ctx b!"ExtrinsicSignature") sigB sig [])
    (h3 : signatureOf sig = .ok sigText) (hv : DecAt (rec ctx b!"U8") evB (.int ev) []) (h4 : DecAt (rec ctx b!"EraExtrinsic") eraB (.str era) [])
    (h5 : DecAt (rec ctx b!"Compact<U64>") nonceB (.uint 8 nonce.toNat) []) (h6 : 0 ≤ nonce ∧ nonce < 2 ^ 63)
    (h8 : DecAt (readExts5 env.ext rec ctx md opt) b (tip, exts) []) :
    DecAt (readSigned5 env rec ctx md opt) (signerB ++ (sigB ++ (evB ++ (eraB ++ (nonceB ++ b)))))
      ⟨signer, sig, sigText, ev, era, nonce, tip, exts⟩ [] := by
  have hn : goNonce (.uint 8 nonce.toNat) = .ok nonce := by
    rw [goNonce, wrap64_nat (by omega), Int.toNat_of_nonneg h6.1]
  unfold readSigned5
  exact DecAt.step0 h1 (DecAt.step0 h2 (DecAt.step0 hv (DecAt.value (a := ev) rfl (DecAt.value h3 (DecAt.step0 h4 (DecAt.value (a := era) rfl
    (DecAt.step0 h5 (DecAt.value hn (DecAt.last h8 fun st => rfl)))))))))

/-- Arguments that can be read one by one are read together. -/
theorem forall2_reads {env : Env} {ctx : Ctx} {args : List (Str × Str)} {items : List Item}
    (h : List.Forall₂ (fun (a : Str × Str) (x : Item) => Decodes env ctx a.2 x.2.1 x.1 x.2.2) args items) :
    ∃ N, ∀ n, N ≤ n → List.Forall₂ (fun a x => DecAt (pau env n ctx a.2) x.2.1 x.1 x.2.2) args items := by
  induction h with
  | nil => exact ⟨0, fun _ _ => .nil⟩
  | cons h _ ih =>
    obtain ⟨N, hN⟩ := ih
    obtain ⟨M, hM⟩ := h
    exact ⟨max N M, fun n hn => .cons (hM n (by omega)) (hN n (by omega))⟩

/-- Reading an extrinsic when the part before the call is read as `s`; bytes may be left over. -/
theorem reads_of {env : Env} {md : MD} {opt : ExtOpt} {i j : UInt8} {e : CallEntry} {items : List Item} {c suf : Str}
    (hl : LenOK env ⟨opt.module, opt.spec, some md⟩) (v : UInt8) (sb : Str) (s : Option Signed) (ics : List Str)
    (hk : md.callIndex (_root_.Spec.hexText [i, j]) = some e)
    (ha : List.Forall₂ (fun (a : Str × Str) (x : Item) => Decodes env ⟨e.moduleName, opt.spec, some md⟩ a.2 x.2.1 x.1 x.2.2) e.args items)
    (hlen : sb.length + (items.map (·.2.1)).flatten.length + suf.length < 2 ^ 61 + 2 ^ 60)
    (hs : ∃ N, ∀ n, N ≤ n → DecAt (readSigned env (pau env n) ⟨opt.module, opt.spec, some md⟩ md opt (_root_.Spec.hexText [v])) sb s ics)
    (hc : _root_.Spec.IsCompact ([v] ++ sb ++ [i, j] ++ (items.map (·.2.1)).flatten ++ suf).length c) :
    ∃ N, ∀ n, N ≤ n → ∃ st, decodeExtrinsic env n md opt (c ++ ([v] ++ sb ++ [i, j] ++ (items.map (·.2.1)).flatten ++ suf)) =
      .ok (⟨([v] ++ sb ++ [i, j] ++ (items.map (·.2.1)).flatten ++ suf).length, _root_.Spec.hexText [v], s, _root_.Spec.hexText [i, j], e.moduleName, e.callName,
        (e.args.zip (items.map (fun x : Item => x.1))).map (fun a => (a.1.1, a.1.2, a.2)), _root_.Spec.hexText (items.map (·.2.1)).flatten⟩, st) ∧
      st.cur.off + suf.length = st.cur.data.length := by
  obtain ⟨N1, h1⟩ := hs
  obtain ⟨N2, h2⟩ := forall2_reads ha
  obtain ⟨N3, h3⟩ := len_decodes hl (by simp only [List.length_append, List.length_cons, List.length_nil]; omega) hc
  have hcl : c.length ≤ 68 := by
    simp only [List.length_append, List.length_cons, List.length_nil] at hc
    rcases hc with ⟨_, rfl⟩ | ⟨_, _, rfl⟩ | ⟨_, _, rfl⟩ | ⟨_, k, _, hk, _, _, rfl⟩
    · rw [leBytes_length]; omega
    · rw [leBytes_length]; omega
    · rw [leBytes_length]; omega
    · rw [List.length_append, leBytes_length, leBytes_length]; omega
  refine ⟨max N1 (max N2 N3), fun n hn => ?_⟩
  have d0 := h3 n (by omega) [] ([v] ++ sb ++ [i, j] ++ (items.map (·.2.1)).flatten ++ suf) []
    (by simp only [List.length_append, List.length_cons, List.length_nil]; omega)
  have d1 : readLength (pau env n) ⟨opt.module, opt.spec, some md⟩ ⟨⟨c ++ ([v] ++ sb ++ [i, j] ++ (items.map (·.2.1)).flatten ++ suf), 0⟩, []⟩ =
      .ok ((([v] ++ sb ++ [i, j] ++ (items.map (·.2.1)).flatten ++ suf).length : Int),
        ⟨⟨c ++ ([v] ++ sb ++ [i, j] ++ (items.map (·.2.1)).flatten ++ suf), c.length⟩, []⟩) := by
    rw [List.nil_append, List.length_nil, Nat.zero_add, List.append_nil] at d0
    unfold readLength
    rw [d0, Res.ok_bind]
    dsimp only [asInt]
    rw [Res.ok_bind, if_neg]
    simp only [remaining, List.length_append, ne_eq, not_not]
    omega
  have d2 := nextBytes_at c [v] (sb ++ ([i, j] ++ ((items.map (·.2.1)).flatten ++ suf))) [] 1 rfl
    (by simp only [List.length_append, List.length_cons, List.length_nil]; omega)
  have d3 := h1 n (by omega) (c ++ [v]) ([i, j] ++ ((items.map (·.2.1)).flatten ++ suf)) []
    (by simp only [List.length_append, List.length_cons, List.length_nil]; omega)
  have d4 := decAt_readCall (ctx := ⟨opt.module, opt.spec, some md⟩) hk (h2 n (by omega)) (c ++ [v] ++ sb) suf ([] ++ ics)
    (by simp only [List.length_append, List.length_cons, List.length_nil]; omega)
  simp only [List.append_assoc, List.cons_append, List.nil_append, List.length_append, List.length_cons, List.length_nil,
    Nat.zero_add, Nat.add_assoc] at d1 d2 d3 d4 ⊢
  rw [Nat.add_comm (List.length sb) 1] at d4
  unfold decodeExtrinsic processExtrinsic
  dsimp only
  rw [d1, Res.ok_bind]
  dsimp only
  rw [d2, Res.ok_bind]
  dsimp only
  rw [bytesToHex_eq_spec, d3, Res.ok_bind]
  dsimp only
  rw [d4, Res.ok_bind]
  refine ⟨_, rfl, ?_⟩
  simp only [List.length_append, List.length_cons]
  omega

theorem tipAfter_mem : ∀ (es : List (WExtension × ExtSays × Str)) (t : Int × Int), (es.map fun e => keptText e.1.identifier).Nodup →
    (∀ x (m : Nat) c, (x, ExtSays.tip m, c) ∈ es → keptText x.identifier = payment) →
    (∀ x (m : Nat) c, (x, ExtSays.tip m, c) ∈ es → tipAfter t es = ((m : Int), 0)) ∧
      ((∀ x m c, (x, ExtSays.tip m, c) ∉ es) → tipAfter t es = t)
  | [], t, _, _ => ⟨fun _ _ _ h => (by cases h), fun _ => rfl⟩
  | (y, .tip k, d) :: es, t, hn, hp => by
    rw [List.map_cons, List.nodup_cons] at hn
    have hno : ∀ x m c, (x, ExtSays.tip m, c) ∉ es := by
      intro x m c h
      refine hn.1 (List.mem_map.2 ⟨_, h, ?_⟩)
      exact (hp _ _ _ (List.mem_cons_of_mem _ h)).trans (hp _ _ _ List.mem_cons_self).symm
    obtain ⟨-, h2⟩ := tipAfter_mem es ((k : Int), 0) hn.2 fun x m c h => hp x m c (List.mem_cons_of_mem _ h)
    refine ⟨fun x m c h => ?_, fun h => absurd List.mem_cons_self (h y k d)⟩
    rcases List.mem_cons.1 h with e | h
    · cases e; exact h2 hno
    · exact absurd h (hno _ _ _)
  | (y, .era _, d) :: es, t, hn, hp => by
    rw [List.map_cons, List.nodup_cons] at hn
    obtain ⟨h1, h2⟩ := tipAfter_mem es t hn.2 fun x m c h => hp x m c (List.mem_cons_of_mem _ h)
    refine ⟨fun x m c h => ?_, fun h => h2 fun x m c h' => h x m c (List.mem_cons_of_mem _ h')⟩
    rcases List.mem_cons.1 h with e | h
    · cases e
    · exact h1 x m c h
  | (y, .nonce _, d) :: es, t, hn, hp => by
    rw [List.map_cons, List.nodup_cons] at hn
    obtain ⟨h1, h2⟩ := tipAfter_mem es t hn.2 fun x m c h => hp x m c (List.mem_cons_of_mem _ h)
    refine ⟨fun x m c h => ?_, fun h => h2 fun x m c h' => h x m c (List.mem_cons_of_mem _ h')⟩
    rcases List.mem_cons.1 h with e | h
    · cases e
    · exact h1 x m c h
  | (y, .data _, d) :: es, t, hn, hp => by
    rw [List.map_cons, List.nodup_cons] at hn
    obtain ⟨h1, h2⟩ := tipAfter_mem es t hn.2 fun x m c h => hp x m c (List.mem_cons_of_mem _ h)
    refine ⟨fun x m c h => ?_, fun h => h2 fun x m c h' => h x m c (List.mem_cons_of_mem _ h')⟩
    rcases List.mem_cons.1 h with e | h
    · cases e
    · exact h1 x m c h

theorem dataAfter_mem {opt : ExtOpt} : ∀ (es : List (WExtension × ExtSays × Str)) (n : Str) (r : Val),
    (n, r) ∈ dataAfter opt es ↔ ∃ x c, (x, ExtSays.data r, c) ∈ es ∧ Enabled opt (keptText x.identifier) ∧ keptText x.identifier = n
  | [], n, r => by simp [dataAfter]
  | (y, .data q, d) :: es, n, r => by
    unfold dataAfter
    split
    · next hE =>
      rw [List.mem_cons, dataAfter_mem es n r]
      constructor
      · rintro (e | ⟨x, c, h, h'⟩)
        · cases e; exact ⟨y, d, List.mem_cons_self, hE, rfl⟩
        · exact ⟨x, c, List.mem_cons_of_mem _ h, h'⟩
      · rintro ⟨x, c, h, h1, h2⟩
        rcases List.mem_cons.1 h with e | h
        · cases e; exact .inl (by rw [h2])
        · exact .inr ⟨x, c, h, h1, h2⟩
    · next hE =>
      rw [dataAfter_mem es n r]
      constructor
      · rintro ⟨x, c, h, h'⟩; exact ⟨x, c, List.mem_cons_of_mem _ h, h'⟩
      · rintro ⟨x, c, h, h1, h2⟩
        rcases List.mem_cons.1 h with e | h
        · cases e; exact absurd h1 hE
        · exact ⟨x, c, h, h1, h2⟩
  | (y, .era _, d) :: es, n, r => by
    have := dataAfter_mem (opt := opt) es n r
    simpa [dataAfter] using this
  | (y, .nonce _, d) :: es, n, r => by
    have := dataAfter_mem (opt := opt) es n r
    simpa [dataAfter] using this
  | (y, .tip _, d) :: es, n, r => by
    have := dataAfter_mem (opt := opt) es n r
    simpa [dataAfter] using this

/-- Extensions that the reader does not know are passed over. -/
theorem metaExts_skip {ext : Ext} {rec : Rec} {ctx : Ctx} {opt : ExtOpt} {tip : Int × Int} {acc : List (Str × Val)} (rest : List (Str × Str)) :
    ∀ l : List (Str × Str), (∀ y ∈ l, ¬ Enabled opt y.1) →
    readMetaExts ext rec ctx opt.additionalCheck (l ++ rest) tip acc = readMetaExts ext rec ctx opt.additionalCheck rest tip acc
  | [], _ => rfl
  | (n, t) :: l, h => by
    rw [← metaExts_skip rest l fun y hy => h y (List.mem_cons_of_mem _ hy)]
    funext st
    rw [List.cons_append, readMetaExts, if_neg (fun e => h _ List.mem_cons_self ((enabled_iff opt _).1 e))]

/-- What is read before the call, if the extensions are in order. Nothing is asked of extensions without bytes that the reader passes over. -/
theorem chain_signed {l : List (Nat × PType)} {ps : List WPallet} {spec0 : Int} {reg : RegState} {dup : Str → Nat}
    {A : Nat → Prop} {fuel : Nat} {st : SiState} {o : List (Str × Nat)} (hr : SignReady reg) (hU : Understood l spec0 reg dup A fuel st) (hR : Regular l ps)
    {a s : Nat} (hS : Signing { wireCfg l spec0 with dup := dup } A l a s) {md : MD} {opt : ExtOpt} {x : ExtrinsicMeta} (hv14 : 14 ≤ md.version)
    (hx : md.extrinsic = some x) (hmod : opt.module = []) (hopt : opt.signedExtensions = []) {q : ChainSigned}
    (hsigner : ∃ v, Scale (Covered { wireCfg l spec0 with dup := dup } A) (SupportedBy fun _ => True) a v q.signer q.signerB)
    (hsig : ∃ v, Scale (Covered { wireCfg l spec0 with dup := dup } A) (SupportedBy fun _ => True) s v q.sig q.sigB)
    (htext : q.sig = .str q.sigText ∨ ∃ n, q.sig = .map [(n, .str q.sigText)])
    (hlisted : x.signedExtensions = q.exts.map fun e => (keptText e.1.identifier, siText st.ids e.1.type))
    (hnod : (q.exts.map fun e => keptText e.1.identifier).Nodup)
    (hcoded : ∀ e ∈ q.exts, e.2.2 ≠ [] ∨ Enabled opt (keptText e.1.identifier) → ExtCoded (Covered { wireCfg l spec0 with dup := dup } A) l e.1 e.2.1 e.2.2)
    {pre : List (WExtension × ExtSays × Str)} {xe : WExtension} {be : Str} {mid : List (WExtension × ExtSays × Str)} {xn : WExtension} {n : Nat} {bn : Str}
    {post : List (WExtension × ExtSays × Str)} (hes : q.exts = pre ++ (xe, .era be, be) :: (mid ++ (xn, .nonce n, bn) :: post))
    (hoff : ∀ e ∈ pre ++ (xe, .era be, be) :: (mid ++ [(xn, .nonce n, bn)]), ¬ Enabled opt (keptText e.1.identifier))
    (hgap : ∀ e ∈ pre ++ mid, e.2.2 = [] ∧ ∃ r, e.2.1 = .data r) (hbe : be ≠ []) (hbn : bn ≠ [])
    (hpost : ∀ e ∈ post, (Enabled opt (keptText e.1.identifier) ∧ ∃ m, e.2.1 = .tip m) ∨
      (Enabled opt (keptText e.1.identifier) ∨ e.2.2 = []) ∧ ∃ r, e.2.1 = .data r) :
    ∃ ev : Int, (∀ v, q.extVersion = some v → ev = v.toNat) ∧ ∃ N, ∀ k, N ≤ k →
      DecAt (readSigned (registerOriginCaller st.reg.env o) (pau (registerOriginCaller st.reg.env o) k) ⟨opt.module, opt.spec, some md⟩ md opt
        (_root_.Spec.hexText [q.version])) q.bytes
        (some ⟨q.signer, q.sig, q.sigText, ev, _root_.Spec.hexText be, (n : Int), tipAfter (0, 0) post, dataAfter opt post⟩) [] := by
  obtain ⟨sv, hsv⟩ := hsigner
  obtain ⟨gv, hgv⟩ := hsig
  obtain ⟨hs1, -, hs2⟩ := origin_param hr hU (o := o) hR.numbered hS (.inr ⟨rfl, rfl⟩) (ctx := ⟨opt.module, opt.spec, some md⟩) hmod ECtx.none hsv
  obtain ⟨-, -, hg2⟩ := origin_param hr hU (o := o) hR.numbered hS (.inl ⟨rfl, rfl⟩) (ctx := ⟨opt.module, opt.spec, some md⟩) hmod ECtx.none hgv
  have hera := sign_word hr hU (o := o) (t := b!"EraExtrinsic") (c := .era) (by decide +kernel) (by kernel_rfl) (by decide +kernel) opt.module opt.spec
    ((by decide +kernel : NeverOverridden b!"EraExtrinsic").apply _)
  have hu64 := sign_word hr hU (o := o) (t := b!"U64") (c := .u64) (by decide +kernel) (by kernel_rfl) (by decide +kernel) [] 0 (notOverridden_nil _)
  have hbal := sign_word hr hU (o := o) (t := b!"Balance") (c := .balance) (by decide +kernel) (by kernel_rfl) (by decide +kernel) [] 0 (notOverridden_nil _)
  have hcn := sign_compact hr hU (o := o) (a := b!"U64") (.inl rfl) opt.module opt.spec
  have hct := sign_compact hr hU (o := o) (a := b!"Balance") (.inr rfl) opt.module opt.spec
  have hu8 := origin_word hr.toMetaReady hU (o := o) (t := b!"U8") (c := .u8) (by decide +kernel) (by kernel_rfl) (by decide +kernel) opt.module opt.spec
  have e2 : signerType (registerOriginCaller st.reg.env o) md = b!"ExtrinsicSigner" := if_pos ⟨hv14, hs1⟩
  rw [← e2] at hs2
  have ce : ExtCoded (Covered { wireCfg l spec0 with dup := dup } A) l xe (.era be) be := hcoded (xe, .era be, be) (by rw [hes]; simp) (.inl hbe)
  have cn : ExtCoded (Covered { wireCfg l spec0 with dup := dup } A) l xn (.nonce n) bn := hcoded (xn, .nonce n, bn) (by rw [hes]; simp) (.inl hbn)
  have hera' : Decodes (registerOriginCaller st.reg.env o) ⟨opt.module, opt.spec, some md⟩ b!"EraExtrinsic" be (.str (_root_.Spec.hexText be)) [] := by
    cases ce with
    | era _ h =>
      rcases h with e | ⟨x, y, hne, e⟩ <;> rw [e]
      · exact C48_decode_immortal _ _ _ [] hera
      · exact C48_decode_mortal _ _ _ [] x y hne hera
  have hnonce : n < 2 ^ 63 ∧ Decodes (registerOriginCaller st.reg.env o) ⟨opt.module, opt.spec, some md⟩ b!"Compact<U64>" bn (.uint 8 (n : Int).toNat) [] := by
    cases cn with
    | nonce _ h1 h2 =>
      exact ⟨h1, C16_decode (registerOriginCaller st.reg.env o) _ b!"Compact<U64>" [] b!"U64" [] .u64 n bn _ hcn (by decide) hu64 ⟨by omega, rfl⟩ h2
        (fun h => by cases h)⟩
  have hmem : ∀ e ∈ post, e ∈ q.exts := fun e he => by rw [hes]; simp [he]
  have hgapB : ∀ es : List (WExtension × ExtSays × Str), (∀ e ∈ es, e.2.2 = []) → extBytes es = [] := by
    intro es h
    unfold extBytes
    rw [List.flatten_eq_nil_iff]
    intro b hb
    obtain ⟨e, he, rfl⟩ := List.mem_map.1 hb
    exact h e he
  have hbytes : extBytes q.exts = be ++ (bn ++ extBytes post) := by
    rw [hes]
    have h1 := hgapB pre fun e he => (hgap e (List.mem_append_left _ he)).1
    have h2 := hgapB mid fun e he => (hgap e (List.mem_append_right _ he)).1
    unfold extBytes at h1 h2 ⊢
    simp only [List.map_append, List.map_cons, List.flatten_append, List.flatten_cons, h1, h2, List.nil_append]
  -- the extensions behind the nonce
  have hitem : ∀ e ∈ post, ∃ N, ∀ k, N ≤ k → Enabled opt (keptText e.1.identifier) →
      (∃ m : Nat, e.2.1 = .tip m ∧ keptText e.1.identifier = payment ∧
        DecAt (readTip (registerOriginCaller st.reg.env o).ext (pau (registerOriginCaller st.reg.env o) k) ⟨opt.module, opt.spec, some md⟩) e.2.2 ((m : Int), 0) []) ∨
      ∃ r, e.2.1 = .data r ∧ keptText e.1.identifier ≠ payment ∧
        DecAt (pau (registerOriginCaller st.reg.env o) k ⟨opt.module, opt.spec, some md⟩ (siText st.ids e.1.type)) e.2.2 r [] := by
    intro e he
    by_cases hE : ¬ Enabled opt (keptText e.1.identifier)
    · exact ⟨0, fun _ _ h => absurd h hE⟩
    have hcod := hcoded e (hmem e he) (.inr (not_not.1 hE))
    have hkind : (∃ m, e.2.1 = .tip m) ∨ ∃ r, e.2.1 = .data r := (hpost e he).imp And.right And.right
    clear hE
    obtain ⟨y, w, b⟩ := e
    dsimp only at hcod hkind ⊢
    cases hcod with
    | era => rcases hkind with ⟨_, h⟩ | ⟨_, h⟩ <;> cases h
    | nonce => rcases hkind with ⟨_, h⟩ | ⟨_, h⟩ <;> cases h
    | @tip m _ h1 h2 h3 =>
      obtain ⟨N, hN⟩ := C16_decode (registerOriginCaller st.reg.env o) ⟨opt.module, opt.spec, some md⟩ b!"Compact<Balance>" [] b!"Balance" [] .balance m b _ hct
        (by decide) hbal ⟨by omega, rfl⟩ h3 (fun _ => by omega)
      exact ⟨N, fun k hk _ => .inl ⟨m, rfl, h1, decAt_readTip (hN k hk) rfl⟩⟩
    | @data v r _ h1 h2 h3 =>
      obtain ⟨N, hN⟩ := (origin_scale hr.toMetaReady hU (o := o) hR.numbered (ctx := ⟨opt.module, opt.spec, some md⟩) ECtx.none
        (by rw [hmod]; exact fun _ _ _ _ => notOverridden_nil _) h2 h3).2
      exact ⟨N, fun k hk _ => .inr ⟨r, rfl, fun e => h1 (by rw [e]; exact List.mem_append_right _ (by simp)), hN k hk⟩⟩
  obtain ⟨M, hM⟩ := uniform_bound (l := post) (P := fun e k => Enabled opt (keptText e.1.identifier) →
      (∃ m : Nat, e.2.1 = .tip m ∧ keptText e.1.identifier = payment ∧
        DecAt (readTip (registerOriginCaller st.reg.env o).ext (pau (registerOriginCaller st.reg.env o) k) ⟨opt.module, opt.spec, some md⟩) e.2.2 ((m : Int), 0) []) ∨
      ∃ r, e.2.1 = .data r ∧ keptText e.1.identifier ≠ payment ∧
        DecAt (pau (registerOriginCaller st.reg.env o) k ⟨opt.module, opt.spec, some md⟩ (siText st.ids e.1.type)) e.2.2 r []) hitem
  have hexts : ∀ k, M ≤ k → DecAt (readMetaExts (registerOriginCaller st.reg.env o).ext (pau (registerOriginCaller st.reg.env o) k)
      ⟨opt.module, opt.spec, some md⟩ opt.additionalCheck x.signedExtensions (0, 0) []) (extBytes post)
      (tipAfter (0, 0) post, dataAfter opt post) [] := by
    intro k hk
    have h1 : x.signedExtensions = (pre ++ (xe, ExtSays.era be, be) :: (mid ++ [(xn, ExtSays.nonce n, bn)])).map
        (fun e : WExtension × ExtSays × Str => (keptText e.1.identifier, siText st.ids e.1.type)) ++ post.map (fun e => (keptText e.1.identifier, siText st.ids e.1.type)) := by
      rw [hlisted, hes]
      simp
    rw [h1, metaExts_skip]
    · have := decAt_metaExts_any (ext := (registerOriginCaller st.reg.env o).ext) (rec := pau (registerOriginCaller st.reg.env o) k)
        (ctx := ⟨opt.module, opt.spec, some md⟩) (opt := opt) (ids := st.ids) post (0, 0) [] (by
        intro e he hne
        rcases hpost e he with ⟨h, -⟩ | ⟨h, h'⟩
        · exact absurd h hne
        · exact ⟨h.resolve_left hne, h'⟩) (hM k hk) (by
        rw [hes] at hnod
        refine hnod.sublist ?_
        simp only [List.map_append, List.map_cons, List.map_nil, List.nil_append]
        exact ((List.sublist_cons_self _ _).trans (List.sublist_append_right _ _)).trans ((List.sublist_cons_self _ _).trans (List.sublist_append_right _ _)))
      simpa using this
    · intro y hy
      obtain ⟨e, he, rfl⟩ := List.mem_map.1 hy
      exact hoff e he
  obtain ⟨N1, k1⟩ := hs2
  obtain ⟨N2, k2⟩ := hg2
  obtain ⟨N3, k3⟩ := hera'
  obtain ⟨N4, k4⟩ := hnonce.2
  have htext' : signatureOf q.sig = .ok q.sigText := by rcases htext with e | ⟨n, e⟩ <;> rw [e] <;> rfl
  have hnr : 0 ≤ (n : Int) ∧ (n : Int) < 2 ^ 63 := by have := hnonce.1; omega
  cases hev : q.extVersion with
  | none =>
    refine ⟨0, (fun _ h => by cases h), N1 + N2 + N3 + N4 + M, fun k hk => ?_⟩
    have t4 : DecAt (readTip4 (registerOriginCaller st.reg.env o).ext (pau (registerOriginCaller st.reg.env o) k) ⟨opt.module, opt.spec, some md⟩ md)
        [] (0, 0) [] := by
      have : readTip4 (registerOriginCaller st.reg.env o).ext (pau (registerOriginCaller st.reg.env o) k) ⟨opt.module, opt.spec, some md⟩ md =
          fun st => .ok ((0, 0), st) := by
        funext st
        unfold readTip4
        rw [hx]
        exact if_neg (fun h => by omega)
      rw [this]
      exact DecAt.pure _
    have x4 : DecAt (readExts4 (registerOriginCaller st.reg.env o).ext (pau (registerOriginCaller st.reg.env o) k) ⟨opt.module, opt.spec, some md⟩ md opt
        (0, 0)) (extBytes post) (tipAfter (0, 0) post, dataAfter opt post) [] := by
      have : readExts4 (registerOriginCaller st.reg.env o).ext (pau (registerOriginCaller st.reg.env o) k) ⟨opt.module, opt.spec, some md⟩ md opt (0, 0) =
          readMetaExts (registerOriginCaller st.reg.env o).ext (pau (registerOriginCaller st.reg.env o) k) ⟨opt.module, opt.spec, some md⟩
            opt.additionalCheck x.signedExtensions (0, 0) [] := by
        funext st
        unfold readExts4
        rw [if_neg (not_not.2 hopt), if_pos hv14, hx]
      rw [this]
      exact hexts k (by omega)
    have d := decAt_signed4 (p := ⟨q.signer, q.signerB, q.sig, q.sigText, q.sigB, be, bn, .nil, []⟩) (k1 k (by omega)) (k2 k (by omega)) htext'
      (k3 k (by omega)) (k4 k (by omega)) hnr t4 x4
    have e1 : q.version = 0x84 := by unfold ChainSigned.version; rw [if_pos hev]
    have e : readSigned (registerOriginCaller st.reg.env o) (pau (registerOriginCaller st.reg.env o) k) ⟨opt.module, opt.spec, some md⟩ md opt
        (_root_.Spec.hexText [q.version]) = fun st' => readSigned4 (registerOriginCaller st.reg.env o) (pau (registerOriginCaller st.reg.env o) k)
          ⟨opt.module, opt.spec, some md⟩ md opt st' >>= fun p => .ok (some p.1, p.2) := by
      funext st'
      unfold readSigned
      rw [e1, if_neg (by decide), if_pos (by decide)]
    rw [e]
    refine (d.map some).cast ?_
    unfold ChainSigned.bytes
    rw [hev, hbytes]
    simp
  | some ev =>
    obtain ⟨N5, k5⟩ := C07_decode (registerOriginCaller st.reg.env o) ⟨opt.module, opt.spec, some md⟩ b!"U8" 1 ev.toNat [] (by simp) (by
      have := ev.toNat_lt; omega) hu8
    refine ⟨ev.toNat, (fun _ h => by cases h; rfl), N1 + N2 + N3 + N4 + N5 + M, fun k hk => ?_⟩
    have x5 : DecAt (readExts5 (registerOriginCaller st.reg.env o).ext (pau (registerOriginCaller st.reg.env o) k) ⟨opt.module, opt.spec, some md⟩ md opt)
        (extBytes post) (tipAfter (0, 0) post, dataAfter opt post) [] := by
      have : readExts5 (registerOriginCaller st.reg.env o).ext (pau (registerOriginCaller st.reg.env o) k) ⟨opt.module, opt.spec, some md⟩ md opt =
          readMetaExts (registerOriginCaller st.reg.env o).ext (pau (registerOriginCaller st.reg.env o) k) ⟨opt.module, opt.spec, some md⟩
            opt.additionalCheck x.signedExtensions (0, 0) [] := by
        funext st
        unfold readExts5
        rw [hx]
      rw [this]
      exact hexts k (by omega)
    have d := decAt_signed5 (k1 k (by omega)) (k2 k (by omega)) htext' (k5 k (by omega)) (k3 k (by omega)) (k4 k (by omega)) hnr x5
    have e1 : q.version = 0x85 := by unfold ChainSigned.version; rw [if_neg (by rw [hev]; simp)]
    have e : readSigned (registerOriginCaller st.reg.env o) (pau (registerOriginCaller st.reg.env o) k) ⟨opt.module, opt.spec, some md⟩ md opt
        (_root_.Spec.hexText [q.version]) = fun st' => readSigned5 (registerOriginCaller st.reg.env o) (pau (registerOriginCaller st.reg.env o) k)
          ⟨opt.module, opt.spec, some md⟩ md opt st' >>= fun p => .ok (some p.1, p.2) := by
      funext st'
      unfold readSigned
      rw [e1, if_neg (by decide), if_neg (by decide), if_pos (by decide)]
    rw [e]
    refine (d.map some).cast ?_
    unfold ChainSigned.bytes
    rw [hev, hbytes]
    have : _root_.Spec.leBytes 1 ev.toNat = [ev] := forall_byte (P := fun ev => _root_.Spec.leBytes 1 ev.toNat = [ev]) (by decide +kernel) ev
    simp [this]

/-- Whatever describes the metadata in the output, the extrinsics of the chain are read. -/
theorem readsChain_of {check : Bool} {l : List (Nat × PType)} {ps : List WPallet} {xs : List WExtension} {spec0 : Int} {reg : RegState} {dup : Str → Nat}
    {A : Nat → Prop} {fuel : Nat} {st : SiState} {o : List (Str × Nat)} (hr : SignReady reg) (hU : Understood l spec0 reg dup A fuel st) (hR : Regular l ps)
    (hN : Named xs) {a s : Nat} (hS : Signing { wireCfg l spec0 with dup := dup } A l a s) {out : V14Out} (hD : DescribedOut check l ps xs st.ids out)
    (ho : out.reg.env = registerOriginCaller st.reg.env o) (md : MD) (hm : UsesAll md out) :
    ReadsChain (Covered { wireCfg l spec0 with dup := dup } A) l ps xs (fun x => Untouched { wireCfg l spec0 with dup := dup } (keptText x.name))
      InOrder st.ids out.reg.env md a s := by
  intro x v i j as hcall hok has opt q hmod hopt hq hord hlen
  obtain ⟨⟨hv14, hc, -⟩, hx⟩ := hm
  have hext := hD.extrinsic
  have hL := (hU.loaded hr.toReady).origin hU.tidy hr.origin o
  have hkn : md.callIndex (_root_.Spec.hexText [i, j]) = some (wireCall st.ids x v) := by
    rw [hc]
    exact (hD.calls i j _).2 (described_call hcall)
  obtain ⟨pre, xe, be, mid, xn, n, bn, post, hes, hoff, hgap, hpost⟩ := hord
  have hnod : (q.exts.map fun e => keptText e.1.identifier).Nodup := by
    have := hN
    unfold Named at this
    rw [← hq.listed, List.map_map] at this
    exact this
  have hmem : ∀ e ∈ post, e ∈ q.exts := fun e he => by rw [hes]; simp [he]
  have hlisted : out.extrinsic.signedExtensions = q.exts.map fun e => (keptText e.1.identifier, siText st.ids e.1.type) := by
    rw [hext, ← hq.listed]
    simp [Function.comp_def]
  have hbe : be ≠ [] := by
    have ce := hq.coded (xe, .era be, be) (by rw [hes]; simp)
    cases ce with
    | era _ h => rcases h with rfl | ⟨_, _, _, rfl⟩ <;> exact List.cons_ne_nil _ _
  have hbn : bn ≠ [] := by
    have cn := hq.coded (xn, .nonce n, bn) (by rw [hes]; simp)
    cases cn with
    | nonce _ _ h => exact isCompact_ne_nil h
  rw [ho]
  obtain ⟨ev, hev, hread⟩ := chain_signed hr hU (o := o) hR hS hv14 hx hmod hopt hq.signer hq.sig hq.text hlisted hnod (fun e he _ => hq.coded e he)
    hes hoff hgap hbe hbn hpost
  have hargs : List.Forall₂ (fun (a : Str × Str) (y : Item) => Decodes (registerOriginCaller st.reg.env o) ⟨(wireCall st.ids x v).moduleName, opt.spec, some md⟩
      a.2 y.2.1 y.1 y.2.2) (wireCall st.ids x v).args (as.map Arg.item) := by
    have : List.Forall₂ (fun f (a : Arg) => f.type < l.length ∧ Scale (Covered { wireCfg l spec0 with dup := dup } A) (SupportedBy fun _ => True) f.type a.1 a.2.1 a.2.2) v.fields as := has
    unfold wireCall
    dsimp only
    revert this
    clear hlen hkn hcall has
    generalize v.fields = fs
    intro this
    induction this with
    | nil => exact .nil
    | cons h _ ih => exact .cons (origin_scale hr.toMetaReady hU hR.numbered (ctx := ⟨_, _, _⟩) ECtx.none hok h.1 h.2).2 ih
  have hab : ((as.map Arg.item).map (·.2.1)).flatten = argBytes as := by simp [Arg.item, argBytes, Function.comp_def]
  have hcase : ∀ e ∈ q.exts, e ∈ pre ++ mid ∨ e = (xe, .era be, be) ∨ e = (xn, .nonce n, bn) ∨ e ∈ post := by
    intro e he
    rw [hes] at he
    simp only [List.mem_append, List.mem_cons] at he ⊢
    tauto
  have htips := tipAfter_mem post (0, 0) (by
    rw [hes] at hnod
    refine hnod.sublist ?_
    simp only [List.map_append, List.map_cons]
    exact ((List.sublist_cons_self _ _).trans (List.sublist_append_right _ _)).trans ((List.sublist_cons_self _ _).trans (List.sublist_append_right _ _)))
    (by
      intro y m d hy
      have := hq.coded _ (hmem _ hy)
      cases this with
      | tip h => exact h)
  intro c hcl
  obtain ⟨N, hN⟩ := reads_of (suf := []) (len_ok hU.tidy hr.stock hL hr.special).1 q.version q.bytes _ [] hkn hargs
    (by rw [hab]; simp only [List.length_nil]; omega) hread (by rw [List.append_nil]; exact hcl)
  refine ⟨N, fun k hk => ?_⟩
  obtain ⟨st', h1, h2⟩ := hN k hk
  rw [List.append_nil] at h1
  refine ⟨_, st', _, h1, by simpa using h2, rfl, rfl, rfl, ⟨rfl, rfl, rfl, hev, ?_, ?_, ?_, ?_, ?_, ?_⟩, rfl, rfl, rfl, rfl, rfl⟩
  · rintro y b d hy
    rcases hcase _ hy with h | h | h | h
    · obtain ⟨r, h⟩ := (hgap _ h).2
      cases h
    · cases h; rfl
    · cases h
    · rcases hpost _ h with ⟨_, _, h⟩ | ⟨_, _, h⟩ <;> cases h
  · rintro y b d hy
    rcases hcase _ hy with h | h | h | h
    · obtain ⟨r, h⟩ := (hgap _ h).2
      cases h
    · cases h
    · cases h; rfl
    · rcases hpost _ h with ⟨_, _, h⟩ | ⟨_, _, h⟩ <;> cases h
  · rintro y m d hy
    rcases hcase _ hy with h | h | h | h
    · obtain ⟨r, h⟩ := (hgap _ h).2
      cases h
    · cases h
    · cases h
    · exact htips.1 y m d h
  · intro h
    exact htips.2 fun y m d hy => h y m d (hmem _ hy)
  · rintro y r d hy hd
    refine (dataAfter_mem _ _ _).2 ?_
    rcases hcase _ hy with h | h | h | h
    · exact absurd (hgap _ h).1 hd
    · cases h
    · cases h
    · refine ⟨y, d, h, ?_, rfl⟩
      rcases hpost _ h with ⟨h, -⟩ | ⟨h, -⟩
      · exact h
      · exact h.resolve_right hd
  · intro m r h
    obtain ⟨y, d, h1, -, h2⟩ := (dataAfter_mem _ _ _).1 h
    exact ⟨y, d, hmem _ h1, h2⟩

/-- The extrinsics of a chain with V14 metadata are read; missing are chains whose extensions carry data that the reader does not expect, or
expects elsewhere. -/
theorem C96_v14_partial (reg : RegState) (spec : Int) (md0 : Option MD) (l : List (Nat × PType)) (ps : List WPallet) (t v : Nat) (xs : List WExtension)
    (b : Str) (dup : Str → Nat) (A : Nat → Prop) (fuel : Nat) (st : SiState) (a s : Nat) (hr : SignReady reg) (hw : Written14 l ps t v xs b)
    (hR : Regular l ps) (hU : Understood l spec reg dup A fuel st) (hN : Named xs) (hS : Signing { wireCfg l spec with dup := dup } A l a s) :
    ∃ out, Settles (fun n => processV14 n reg ⟨[], spec, md0⟩) b out ∧ DescribedOut true l ps xs st.ids out ∧ ∀ md, UsesAll md out →
      ReadsChain (Covered { wireCfg l spec with dup := dup } A) l ps xs (fun x => Untouched { wireCfg l spec with dup := dup } (keptText x.name))
        InOrder st.ids out.reg.env md a s := by
  obtain ⟨out, h1, h2, h3⟩ := C79_partial reg spec md0 l ps t v xs b dup A fuel st hr.toMetaReady hw hR hU
  exact ⟨out, h1, h2, fun md hm => readsChain_of hr hU hR hN hS h2 (by rw [h3]) md hm⟩

/-- The same for V15 metadata. -/
theorem C96_v15_partial (reg : RegState) (spec : Int) (md0 : Option MD) (x : W15) (b : Str) (dup : Str → Nat) (A : Nat → Prop) (fuel : Nat) (st : SiState)
    (hr : SignReady reg) (hF : x.Fits) (hw : EncW15 x b) (hR : Regular x.types (x.pallets.map Prod.fst)) (hU : Understood x.types spec reg dup A fuel st)
    (hN : Named x.extensions) (hS : Signing { wireCfg x.types spec with dup := dup } A x.types x.address x.signature) :
    ∃ out, Settles (fun n => processV15 n reg ⟨[], spec, md0⟩) b out ∧ Described15 false x st.ids out ∧ ∀ md, UsesAll md out.toV14Out →
      ReadsChain (Covered { wireCfg x.types spec with dup := dup } A) x.types (x.pallets.map Prod.fst) x.extensions
        (fun p => Untouched { wireCfg x.types spec with dup := dup } (keptText p.name)) InOrder st.ids out.reg.env md x.address x.signature := by
  obtain ⟨out, h1, h2, h3⟩ := C80_exact reg spec md0 x b dup A fuel st hr.toMetaReady hF hw hR hU
  exact ⟨out, h1, h2, fun md hm => readsChain_of hr hU hR hN hS h2.common (by rw [h3]) md hm⟩

/-! ## What does not hold -/

/-- Era, nonce, and an extension with a 16-bit number that the reader does not know. -/
def oddExts : List WExtension := [⟨b!"CheckMortality", 1, 1⟩, ⟨b!"CheckNonce", 1, 1⟩, ⟨b!"CheckAge", 1, 1⟩]

open _root_.Spec (WList WText FRegistry FList FId FText FPallet) in
theorem odd_written : ∃ b, Written14 uxTypes uxPallets 7 4 oddExts b ∧ b.length < 2 ^ 63 := by
  have sm : ∀ n : Nat, n < 64 → Spec.IsCompact n [UInt8.ofNat (4 * n)] := fun n h => .inl ⟨h,
    (by decide : ∀ n < 64, [UInt8.ofNat (4 * n)] = Spec.leBytes 1 (4 * n)) n h⟩
  have no : ∀ {α : Type} {P : α → Str → Prop}, WList P [] [0] := ⟨_, _, sm 0 (by decide), rfl, rfl⟩
  have tx : ∀ s : Str, s.length < 64 → WText s ([UInt8.ofNat (4 * s.length)] ++ s) := fun s h => ⟨_, sm _ h, rfl⟩
  have c0 := sm 0 (by decide)
  refine ⟨_, ⟨⟨_, _, _, ⟨_, _, sm 8 (by decide),
      ⟨_, _, ⟨_, _, c0, ⟨_, _, _, _, ⟨_, _, sm 3 (by decide), ⟨_, _, tx _ (by decide), ⟨_, _, tx _ (by decide), ⟨_, _, tx _ (by decide), rfl, rfl⟩, rfl⟩, rfl⟩, rfl⟩, no,
          ⟨_, ⟨_, _, sm 2 (by decide),
            ⟨_, _, ⟨_, _, _, tx _ (by decide), ⟨_, _, sm 1 (by decide), ⟨_, _, ⟨_, _, _, _, rfl, sm 1 (by decide), rfl, no, rfl⟩, rfl, rfl⟩, rfl⟩, no, rfl⟩,
            ⟨_, _, ⟨_, _, _, tx _ (by decide), ⟨_, _, sm 1 (by decide), ⟨_, _, ⟨_, _, _, _, rfl, sm 2 (by decide), rfl, no, rfl⟩, rfl, rfl⟩, rfl⟩, no, rfl⟩,
              rfl, rfl⟩, rfl⟩, rfl⟩, rfl⟩, no, rfl⟩, rfl⟩,
      ⟨_, _, ⟨_, _, sm 1 (by decide), ⟨_, _, _, _, no, no, rfl, no, rfl⟩, rfl⟩,
      ⟨_, _, ⟨_, _, sm 2 (by decide), ⟨_, _, _, _, no, no, ⟨_, sm 3 (by decide), rfl⟩, no, rfl⟩, rfl⟩,
      ⟨_, _, ⟨_, _, sm 3 (by decide), ⟨_, _, _, _, no, no, rfl, no, rfl⟩, rfl⟩,
      ⟨_, _, ⟨_, _, sm 4 (by decide), ⟨_, _, _, _, ⟨_, _, sm 2 (by decide), ⟨_, _, tx _ (by decide), ⟨_, _, tx _ (by decide), rfl, rfl⟩, rfl⟩, rfl⟩, no,
          ⟨_, ⟨_, _, sm 2 (by decide),
            ⟨_, _, ⟨_, _, _, tx _ (by decide), ⟨_, _, sm 1 (by decide), ⟨_, _, ⟨_, _, _, _, rfl, sm 5 (by decide), rfl, no, rfl⟩, rfl, rfl⟩, rfl⟩, no, rfl⟩,
            ⟨_, _, ⟨_, _, _, tx _ (by decide), ⟨_, _, sm 1 (by decide), ⟨_, _, ⟨_, _, _, _, rfl, sm 5 (by decide), rfl, no, rfl⟩, rfl, rfl⟩, rfl⟩, no, rfl⟩,
              rfl, rfl⟩, rfl⟩, rfl⟩, rfl⟩, no, rfl⟩, rfl⟩,
      ⟨_, _, ⟨_, _, sm 5 (by decide), ⟨_, _, _, _, no, no, ⟨_, sm 3 (by decide), rfl⟩, no, rfl⟩, rfl⟩,
      ⟨_, _, ⟨_, _, sm 6 (by decide), ⟨_, _, _, _, ⟨_, _, sm 2 (by decide), ⟨_, _, tx _ (by decide), ⟨_, _, tx _ (by decide), rfl, rfl⟩, rfl⟩, rfl⟩, no,
          ⟨_, ⟨_, _, sm 1 (by decide),
            ⟨_, _, ⟨_, _, _, tx _ (by decide), ⟨_, _, sm 1 (by decide), ⟨_, _, ⟨_, _, _, _, ⟨_, tx _ (by decide), rfl⟩, sm 1 (by decide), rfl, no, rfl⟩, rfl, rfl⟩, rfl⟩,
              no, rfl⟩, rfl, rfl⟩, rfl⟩, rfl⟩, no, rfl⟩, rfl⟩,
      ⟨_, _, ⟨_, _, sm 7 (by decide), ⟨_, _, _, _, ⟨_, _, sm 4 (by decide), ⟨_, _, tx _ (by decide), ⟨_, _, tx _ (by decide), ⟨_, _, tx _ (by decide),
              ⟨_, _, tx _ (by decide), rfl, rfl⟩, rfl⟩, rfl⟩, rfl⟩, rfl⟩,
          ⟨_, _, sm 4 (by decide), ⟨_, _, ⟨_, _, tx _ (by decide), ⟨_, c0, rfl⟩, rfl⟩, ⟨_, _, ⟨_, _, tx _ (by decide), ⟨_, sm 6 (by decide), rfl⟩, rfl⟩,
            ⟨_, _, ⟨_, _, tx _ (by decide), ⟨_, sm 4 (by decide), rfl⟩, rfl⟩, ⟨_, _, ⟨_, _, tx _ (by decide), rfl, rfl⟩, rfl, rfl⟩, rfl⟩, rfl⟩, rfl⟩, rfl⟩,
          ⟨_, ⟨_, _, sm 1 (by decide), ⟨_, _, ⟨_, _, _, _, rfl, sm 2 (by decide), rfl, no, rfl⟩, rfl, rfl⟩, rfl⟩, rfl⟩, no, rfl⟩, rfl⟩,
        rfl, rfl⟩, rfl⟩, rfl⟩, rfl⟩, rfl⟩, rfl⟩, rfl⟩, rfl⟩, rfl⟩,
    ⟨_, _, sm 1 (by decide), ⟨_, _, ⟨_, _, _, _, _, _, tx _ (by decide), rfl, ⟨_, sm 6 (by decide), rfl⟩, rfl, no, rfl, rfl⟩, rfl, rfl⟩, rfl⟩,
    ⟨_, _, sm 7 (by decide), ⟨_, _, sm 3 (by decide), ⟨_, _, ⟨_, _, _, tx _ (by decide), sm 1 (by decide), sm 1 (by decide), rfl⟩,
      ⟨_, _, ⟨_, _, _, tx _ (by decide), sm 1 (by decide), sm 1 (by decide), rfl⟩,
      ⟨_, _, ⟨_, _, _, tx _ (by decide), sm 1 (by decide), sm 1 (by decide), rfl⟩, rfl, rfl⟩, rfl⟩, rfl⟩, rfl⟩, rfl⟩, rfl⟩, ?_, ?_, ?_, by decide, ?_⟩, ?_⟩
  · simp [uxTypes, FRegistry, FList, FId, _root_.Spec.FType, _root_.Spec.FDef, FText, _root_.Spec.FVariant, _root_.Spec.FField]
  · simp [uxPallets, FList, FPallet, FText, FId]
  · simp [FId]
  · simp [oddExts, FList, _root_.Spec.FExtension, FText, FId]
  · decide +kernel

theorem ux_untouched (m : Str) : Untouched ux m := by
  intro i n hn hne
  have hi := (ux_names i n hn).resolve_left hne
  exact ((by decide +kernel : ∀ p ∈ uxNames, NeverOverridden p.2) _ hi).apply _

theorem ux_call : IsCallOf uxTypes uxPallets ⟨b!"Main", none, some 6, none, [], none, 3⟩ ⟨b!"go", [⟨some b!"x", 1, none, []⟩], 0, []⟩ 3 0 :=
  ⟨by simp [uxPallets], rfl, 6, _, rfl, ux_variants, by simp, rfl⟩

theorem ux_argument : Arguments (Covered ux uxEarly) uxTypes ⟨b!"go", [⟨some b!"x", 1, none, []⟩], 0, []⟩ [(.uint 2 7, .uint 2 7, [7, 0])] :=
  .cons ⟨by decide, .leaf ux_u16 ⟨7, by decide, rfl, rfl, rfl, by decide⟩ trivial⟩ .nil

theorem ux_signerScale : Scale (Covered ux uxEarly) (SupportedBy fun _ => True) 0 uxParts.signer uxParts.signer uxParts.signerB :=
  .variant 0 b!"Id" ux_id List.mem_cons_self (.leaf ux_u16 ⟨5, by decide, rfl, rfl, rfl, by decide⟩ trivial)

theorem ux_sigScale : Scale (Covered ux uxEarly) (SupportedBy fun _ => True) 4 uxParts.sig uxParts.sig uxParts.sigB := by
  have ht : ¬ _root_.Spec.IsText uxSig := by decide +kernel
  have hshow : shown .bytes uxSig = b!"0x" ++ _root_.Spec.hexText uxSig := by rw [shown, if_neg (fun h => ht h.2)]
  exact .variant 1 b!"Sr25519" ux_sr List.mem_cons_self (.leaf ux_array ⟨by decide, by rw [hshow], rfl⟩ (fun h => ht h.1))

/-- An extrinsic of the chain with age `r` in the bytes `c`. -/
def oddSigned (r : Val) (c : Str) : ChainSigned :=
  ⟨uxParts.signer, uxParts.signerB, uxParts.sig, uxParts.sigText, uxParts.sigB, none,
    [(⟨b!"CheckMortality", 1, 1⟩, .era [0], [0]), (⟨b!"CheckNonce", 1, 1⟩, .nonce 1, [4]), (⟨b!"CheckAge", 1, 1⟩, .data r, c)]⟩

/-- The age is taken for the call, and the call for its argument. -/
theorem C96_claim_false : ¬ C96Claim := by
  intro h
  obtain ⟨st, hs, h1⟩ := ux_done
  obtain ⟨b, hb, hl⟩ := odd_written
  have hS : Signing { wireCfg uxTypes 0 with dup := uxDup } uxEarly uxTypes 0 4 := by rw [ux_wire]; exact ux_signing
  have hN : Named oddExts := by unfold Named; decide +kernel
  obtain ⟨out, h2, h3, h4⟩ := h startReg 0 none uxTypes uxPallets 7 4 _ b _ _ 5 st 0 4 start_signReady hb ux_regular (ux_understood hs) hN hS
  obtain ⟨out', h2', -, h5⟩ := C79_partial startReg 0 none uxTypes uxPallets 7 4 _ b _ _ 5 st start_ready hb ux_regular (ux_understood hs)
  cases settles_unique hl h2 h2'
  let md : MD := ⟨14, out.callIndex, out.eventIndex, some out.extrinsic⟩
  have hw := h4 md ⟨⟨by show (14 : Int) ≤ 14; decide, rfl, rfl⟩, rfl⟩
  rw [ux_wire] at hw
  have k3 : keptText b!"CheckMortality" = b!"CheckMortality" ∧ keptText b!"CheckNonce" = b!"CheckNonce" ∧ keptText b!"CheckAge" = b!"CheckAge" := by
    decide +kernel
  have e1 := hw _ _ 3 0 _ ux_call (ux_untouched _) ux_argument ⟨[], 0, [], []⟩ (oddSigned (.uint 2 3) [3, 0]) rfl rfl
    { signer := ⟨_, ux_signerScale⟩
      sig := ⟨_, ux_sigScale⟩
      text := .inr ⟨_, rfl⟩
      listed := rfl
      coded := by
        intro e he
        simp only [oddSigned, List.mem_cons, List.not_mem_nil, or_false] at he
        rcases he with rfl | rfl | rfl
        · exact .era (by rw [k3.1]; decide) (.inl rfl)
        · exact .nonce k3.2.1 (by decide) (.inl ⟨by decide, by decide⟩)
        · exact .data (v := .uint 2 3) (by dsimp only; rw [k3.2.2]; decide) (by decide) (.leaf ux_u16 ⟨3, by decide, rfl, rfl, rfl, by decide⟩ trivial) } rfl (by decide)
  obtain ⟨N, hN1⟩ := e1 [0x35, 0x01] (.inr (.inl ⟨by decide, by decide, by decide⟩))
  have hr := start_signReady
  have hU := ux_understood hs
  obtain ⟨ev, -, hread⟩ := chain_signed hr hU (o := uxPallets.map fun p => (keptText p.name, p.index)) ux_regular hS (md := md) (opt := ⟨[], 0, [], []⟩)
    (x := out.extrinsic) (by show (14 : Int) ≤ 14; decide) rfl rfl rfl (q := oddSigned (.uint 2 3) []) ⟨_, by rw [ux_wire]; exact ux_signerScale⟩
    ⟨_, by rw [ux_wire]; exact ux_sigScale⟩ (.inr ⟨_, rfl⟩) (by rw [h3.extrinsic]; rfl) hN (by
      intro e he hne
      simp only [oddSigned, List.mem_cons, List.not_mem_nil, or_false] at he
      rcases he with rfl | rfl | rfl
      · exact .era (by rw [k3.1]; decide) (.inl rfl)
      · exact .nonce k3.2.1 (by decide) (.inl ⟨by decide, by decide⟩)
      · rcases hne with h | h
        · exact absurd rfl h
        · dsimp only at h
          rw [k3.2.2] at h
          exact absurd h (by decide)) (pre := []) (mid := []) (post := [(⟨b!"CheckAge", 1, 1⟩, .data (.uint 2 3), [])]) rfl (by
      intro e he
      simp only [List.nil_append, List.mem_cons, List.not_mem_nil, or_false] at he
      rcases he with rfl | rfl
      · rw [k3.1]; decide
      · rw [k3.2.1]; decide) (by simp) (by decide) (by decide) (by
      intro e he
      simp only [List.mem_cons, List.not_mem_nil, or_false] at he
      subst he
      exact .inr ⟨.inr rfl, _, rfl⟩)
  have hL := (hU.loaded hr.toReady).origin hU.tidy hr.origin (uxPallets.map fun p => (keptText p.name, p.index))
  have hkn : md.callIndex (_root_.Spec.hexText [3, 0]) = some (wireCall st.ids _ _) := (h3.calls 3 0 _).2 (described_call ux_call)
  obtain ⟨M, hM⟩ := reads_of (c := [0x35, 0x01]) (suf := [7, 0]) (items := [(.uint 2 3, [3, 0], [])])
    (len_ok hU.tidy hr.stock hL hr.special).1 0x84 (oddSigned (.uint 2 3) []).bytes _ [] hkn (.cons (by
      have := (origin_scale hr.toMetaReady hU (o := uxPallets.map fun p => (keptText p.name, p.index)) ux_regular.numbered
        (ctx := ⟨b!"Main", 0, some md⟩) ECtx.none (by rw [ux_wire]; exact ux_untouched _) (i := 1) (v := .uint 2 3) (r := .uint 2 3) (b := [3, 0]) (by decide)
        (by rw [ux_wire]; exact .leaf ux_u16 ⟨3, by decide, rfl, rfl, rfl, by decide⟩ trivial)).2
      exact this) .nil) (by decide) hread (.inr (.inl ⟨by decide, by decide, by decide⟩))
  obtain ⟨st1, g1, -⟩ := hM (max N M) (by omega)
  obtain ⟨x, st2, s, g2, -, -, -, -, -, -, -, -, g3, -⟩ := hN1 (max N M) (by omega)
  rw [h5] at g2
  have : (Res.ok (x, st2) : Res (Extrinsic × St)) = .ok (_, st1) := g2.symm.trans g1
  cases this
  revert g3
  simp [wireCall, Arg.item]

/-! ## The hypotheses are met -/

/-- Era, nonce, an extension with data, and the tip after it. -/
def lateExts : List WExtension := [⟨b!"CheckMortality", 1, 1⟩, ⟨b!"CheckNonce", 1, 1⟩, ⟨b!"CheckMetadataHash", 1, 1⟩, ⟨payment, 1, 1⟩]

open _root_.Spec (FRegistry FList FId FText FPallet) in
theorem late_written : ∃ b, Written14 uxTypes uxPallets 7 4 lateExts b := by
  obtain ⟨b, hb, -⟩ := odd_written
  obtain ⟨b1, b2, -, h1, h2, -, -⟩ := hb.parts
  refine ⟨_, ⟨b1, b2, [28, 4] ++ ([16] ++ (([56] ++ b!"CheckMortality" ++ [4] ++ [4]) ++ (([40] ++ b!"CheckNonce" ++ [4] ++ [4]) ++
    (([68] ++ b!"CheckMetadataHash" ++ [4] ++ [4]) ++ ([96] ++ payment ++ [4] ++ [4]))))), h1, h2,
    ⟨[28], _, .inl ⟨by decide, by decide⟩, ⟨[16], _, .inl ⟨by decide, by decide⟩,
    ⟨_, _, ⟨_, [4], [4], ⟨[56], .inl ⟨by decide, by decide⟩, rfl⟩, .inl ⟨by decide, by decide⟩, .inl ⟨by decide, by decide⟩, rfl⟩,
    ⟨_, _, ⟨_, [4], [4], ⟨[40], .inl ⟨by decide, by decide⟩, rfl⟩, .inl ⟨by decide, by decide⟩, .inl ⟨by decide, by decide⟩, rfl⟩,
    ⟨_, _, ⟨_, [4], [4], ⟨[68], .inl ⟨by decide, by decide⟩, rfl⟩, .inl ⟨by decide, by decide⟩, .inl ⟨by decide, by decide⟩, rfl⟩,
      ⟨_, [], ⟨_, [4], [4], ⟨[96], .inl ⟨by decide, by decide⟩, rfl⟩, .inl ⟨by decide, by decide⟩, .inl ⟨by decide, by decide⟩, rfl⟩, rfl, rfl⟩, rfl⟩, rfl⟩, rfl⟩, rfl⟩,
    by decide⟩, rfl⟩, hb.types, hb.pallets, hb.type, hb.version, by simp [lateExts, FList, _root_.Spec.FExtension, FText, FId, payment]⟩

/-- A mortal extrinsic of version 4 or 5 with nonce 1, tip 2 and the number 3 as an extension. -/
def lateSigned (ev : Option UInt8) : ChainSigned :=
  ⟨uxParts.signer, uxParts.signerB, uxParts.sig, uxParts.sigText, uxParts.sigB, ev,
    [(⟨b!"CheckMortality", 1, 1⟩, .era [0x15, 0], [0x15, 0]), (⟨b!"CheckNonce", 1, 1⟩, .nonce 1, [4]),
      (⟨b!"CheckMetadataHash", 1, 1⟩, .data (.uint 2 3), [3, 0]), (⟨payment, 1, 1⟩, .tip 2, [8])]⟩

/-- It is read, with the tip behind other data, in version 4 and in version 5. -/
example : ∃ b out, Settles (fun n => processV14 n startReg ⟨[], 0, none⟩) b out ∧ ∀ md, UsesAll md out → ∀ ev,
    ∃ N, ∀ n, N ≤ n → ∃ x st s, decodeExtrinsic out.reg.env n md ⟨[], 0, [], []⟩ (_root_.Spec.leBytes 2 (4 * ([(lateSigned ev).version] ++ ([0, 5, 0] ++
        (1 :: uxSig) ++ ev.toList ++ [0x15, 0, 4, 3, 0, 8]) ++ [3, 0] ++ [7, 0]).length + 1) ++ ([(lateSigned ev).version] ++ ([0, 5, 0] ++
        (1 :: uxSig) ++ ev.toList ++ [0x15, 0, 4, 3, 0, 8]) ++ [3, 0] ++ [7, 0])) = .ok (x, st) ∧
      x.signed = some s ∧ s.era = b!"1500" ∧ s.nonce = 1 ∧ s.tip = (2, 0) ∧ (b!"CheckMetadataHash", .uint 2 3) ∈ s.extensions ∧
      x.callFunction = b!"go" ∧ x.params = [(b!"x", b!"U16", .uint 2 7)] := by
  obtain ⟨st, hs, h1⟩ := ux_done
  obtain ⟨b, hb⟩ := late_written
  have hS : Signing { wireCfg uxTypes 0 with dup := uxDup } uxEarly uxTypes 0 4 := by rw [ux_wire]; exact ux_signing
  obtain ⟨out, h2, h3, h4⟩ := C96_v14_partial startReg 0 none uxTypes uxPallets 7 4 _ b _ _ 5 st 0 4 start_signReady hb ux_regular (ux_understood hs)
    (by unfold Named; decide +kernel) hS
  refine ⟨b, out, h2, fun md hm ev => ?_⟩
  have hw := h4 md hm
  rw [ux_wire] at hw
  have k1 : keptText b!"CheckMortality" = b!"CheckMortality" := by decide +kernel
  have k2 : keptText b!"CheckNonce" = b!"CheckNonce" := by decide +kernel
  have k3 : keptText b!"CheckMetadataHash" = b!"CheckMetadataHash" := by decide +kernel
  have k4 : keptText payment = payment := by decide +kernel
  have hlen : (lateSigned ev).bytes.length + 2 < 2 ^ 61 := by
    cases ev <;> exact Nat.le_of_ble_eq_true rfl
  have key := hw _ _ 3 0 _ ux_call (ux_untouched _) ux_argument ⟨[], 0, [], []⟩ (lateSigned ev) rfl rfl
    { signer := ⟨_, ux_signerScale⟩
      sig := ⟨_, ux_sigScale⟩
      text := .inr ⟨_, rfl⟩
      listed := rfl
      coded := by
        intro e he
        simp only [lateSigned, List.mem_cons, List.not_mem_nil, or_false] at he
        rcases he with rfl | rfl | rfl | rfl
        · exact .era (by rw [k1]; decide) (.inr ⟨_, _, by decide, rfl⟩)
        · exact .nonce k2 (by decide) (.inl ⟨by decide, by decide⟩)
        · exact .data (v := .uint 2 3) (by dsimp only; rw [k3]; decide) (by decide) (.leaf ux_u16 ⟨3, by decide, rfl, rfl, rfl, by decide⟩ trivial)
        · exact .tip k4 (by decide) (.inl ⟨by decide, by decide⟩) }
    ⟨[], _, _, [], _, _, _, [_, _], rfl, by
      intro e he
      simp only [List.nil_append, List.mem_cons, List.not_mem_nil, or_false] at he
      rcases he with rfl | rfl
      · rw [k1]; decide
      · rw [k2]; decide, by simp, by
      intro e he
      simp only [List.mem_cons, List.not_mem_nil, or_false] at he
      rcases he with rfl | rfl
      · exact .inr ⟨.inl (by rw [k3]; decide), _, rfl⟩
      · exact .inl ⟨by rw [k4]; decide, _, rfl⟩⟩ hlen
  have t1 : siText st.ids 1 = b!"U16" := by unfold siText; rw [h1]; rfl
  obtain ⟨N, hN⟩ := key _ (.inr (.inl ⟨by cases ev <;> exact Nat.le_of_ble_eq_true rfl, by cases ev <;> exact Nat.le_of_ble_eq_true rfl, rfl⟩))
  refine ⟨N, fun n hn => ?_⟩
  obtain ⟨x, st', s, g1, -, -, -, g2, g3, -, -, g4, g5, -⟩ := hN n hn
  refine ⟨x, st', s, g1, g2, ?_, g3.nonce ⟨b!"CheckNonce", 1, 1⟩ 1 [4] (by simp [lateSigned]), g3.tip ⟨payment, 1, 1⟩ 2 [8] (by simp [lateSigned]), ?_, ?_, ?_⟩
  · rw [g3.era ⟨b!"CheckMortality", 1, 1⟩ [0x15, 0] [0x15, 0] (by simp [lateSigned])]; decide
  · have := g3.data ⟨b!"CheckMetadataHash", 1, 1⟩ (.uint 2 3) [3, 0] (by simp [lateSigned]) (by decide)
    rwa [k3] at this
  · rw [g4]; exact (by decide +kernel : keptText b!"go" = b!"go")
  · rw [g5]
    simp [wireCall, Arg.item, fieldName, t1]
    decide +kernel

end ScaleGo
