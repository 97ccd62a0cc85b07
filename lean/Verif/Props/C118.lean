import Verif.Props.C116
import Verif.Lemmas.ExtrinsicInv
import Verif.Props.C43

/-! # C118: a decoded signed extrinsic consists of the bytes of its parts -/

namespace ScaleGo
open _root_.Spec (Shape Payload Part Scale Leaf Loose Accepts AnyCompact compactNumber compactInt leSum listValue fieldTypes fieldOutputs
  outputs inputs allBytes Tidy Whole hexText)

/-- What Go may report as `AddressType` and `AccountId` for a signer: of a map the entry that the loop comes to last, which may be any. -/
def Reported (signer : Val) (a : Str × Val) : Prop :=
  match signer with
  | .str s => a = (b!"AccountId", .str s)
  | .map m => m = [] ∧ a = ([], .nil) ∨ a ∈ m
  | _ => a = ([], .nil)

/-- The text of a signature: that of the value, or that of an entry of the map, of which all are texts. -/
def SigText (raw : Val) (text : Str) : Prop :=
  match raw with
  | .str t => text = t
  | .map m => (m = [] ∧ text = [] ∨ .str text ∈ m.map Prod.snd) ∧ ∀ v ∈ m.map Prod.snd, ∃ t, v = .str t
  | _ => text = []

/-- A signed extension that was read: identifier, type, value, bytes. -/
structure ReadExt where
  name : Str
  type : Str
  value : Val
  bytes : Str

/-- The extensions of the metadata that are read, with their types. -/
def readsExt (check : List Str) (p : Str × Str) : Bool :=
  p.1 ∈ [b!"ChargeTransactionPayment", b!"ChargeAssetTxPayment", b!"CheckMetadataHash"] ∨ p.1 ∈ check

/-- The bytes of the extensions follow each other; the payment is the tip, the rest is kept by name. -/
def ExtsRead (shape : Str → Shape Str → Prop) (check : List Str) (l : List (Str × Str)) (tip : Int × Int) (m : List (Str × Val))
    (b : Str) : Prop :=
  ∃ xs : List ReadExt, (xs.map fun x => (x.name, x.type)) = l.filter (readsExt check) ∧ b = (xs.map (·.bytes)).flatten ∧
    (∀ x ∈ xs, x.name ≠ b!"ChargeTransactionPayment" → Accepts shape (fun _ _ _ => True) x.type x.value x.bytes) ∧
    m = ((xs.filter fun x => x.name ≠ b!"ChargeTransactionPayment").map fun x => (x.name, x.value)) ∧
    ((∃ x ∈ xs, x.name = b!"ChargeTransactionPayment" ∧ AnyCompact x.bytes ∧
        ∃ n : Int, x.value = .dec n 0 ∧ tip = (n, 0) ∧
          (n = (compactNumber x.bytes % 2 ^ 128 : Nat) ∨ compactNumber x.bytes % 2 ^ 128 = 2 ^ 128 - 1 ∧ n = -1)) ∨
      (∀ x ∈ xs, x.name ≠ b!"ChargeTransactionPayment") ∧ tip = (0, 0))

/-- The types of era, nonce, tip and version are what their names say; those of signer, signature and extensions are described. -/
structure SignedTypes (shape : Str → Shape Str → Prop) (env : Env) (md : MD) (xm : ExtrinsicMeta) : Prop where
  signer : ∃ sh, shape (signerType env md) sh
  signature : ∃ sh, shape b!"ExtrinsicSignature" sh
  era : ∀ sh, shape b!"EraExtrinsic" sh ↔ sh = .era
  nonce : ∀ sh, shape b!"Compact<U64>" sh ↔ sh = .compact (2 ^ 64) false
  tip : ∀ sh, shape b!"Compact<Balance>" sh ↔ sh = .compact (2 ^ 128) true
  version : ∀ sh, shape b!"U8" sh ↔ sh = .uint 1
  exts : ∀ p ∈ xm.signedExtensions, ∃ sh, shape p.2 sh
  names : (xm.signedExtensions.map Prod.fst).Nodup

/-- The parts of a signed extrinsic, in the order of their bytes. -/
def SignedBytes (shape : Str → Shape Str → Prop) (env : Env) (md : MD) (xm : ExtrinsicMeta) (check : List Str) (v : UInt8) (s : Signed)
    (b : Str) : Prop :=
  ∃ sb gb ub eb nb xb, b = sb ++ (gb ++ (ub ++ (eb ++ (nb ++ xb)))) ∧
    Accepts shape (fun _ _ _ => True) (signerType env md) s.signer sb ∧
    Accepts shape (fun _ _ _ => True) b!"ExtrinsicSignature" s.signatureRaw gb ∧ SigText s.signatureRaw s.signature ∧
    (v = 0x84 ∧ ub = [] ∧ s.extVersion = 0 ∨ v = 0x85 ∧ ∃ u : UInt8, ub = [u] ∧ s.extVersion = u.toNat) ∧
    (eb = [0] ∨ ∃ x y, x ≠ 0 ∧ eb = [x, y]) ∧ s.era = hexText eb ∧
    AnyCompact nb ∧ s.nonce = compactInt nb ∧
    ExtsRead shape check xm.signedExtensions s.tip s.extensions xb

/-- Something was read, so there was data left. -/
theorem nextBytes_some {n : Int} {st st' : St} {b : Str} (h : nextBytes n st = .ok (b, st')) (hb : b ≠ []) : Left st := by
  unfold nextBytes at h
  rw [Res.bind_eq_ok] at h
  obtain ⟨⟨b', c⟩, e1, e2⟩ := h
  obtain ⟨rfl, _⟩ := ok_inj e2
  refine Classical.byContradiction fun hn => hb ?_
  have hd : st.cur.data.drop st.cur.off = [] := List.drop_eq_nil_of_le (by unfold Left at hn; omega)
  unfold getNextBytes at e1
  dsimp only at e1
  split at e1
  · split at e1
    · rw [hd] at e1; cases e1; rfl
    · cases e1
  · split at e1
    · rw [hd] at e1; cases e1; simp
    · cases e1

theorem accepts_flat {shape : Str → Shape Str → Prop} {ok : Shape Str → Val → Str → Prop} {ty : Str} {r : Val} {b : Str} {sh : Shape Str}
    (h : Accepts shape ok ty r b) (h1 : ∀ sh', shape ty sh' → sh' = sh) (hf : Flat sh) : Loose sh r b := by
  cases h with
  | leaf hsh hl _ => rw [← h1 _ hsh]; exact hl
  | seq _ hsh => exact absurd hf (by rw [← h1 _ hsh]; exact id)
  | none hsh => exact absurd hf (by rw [← h1 _ hsh]; exact id)
  | some _ hsh => exact absurd hf (by rw [← h1 _ hsh]; exact id)
  | struct _ hsh => exact absurd hf (by rw [← h1 _ hsh]; exact id)
  | variant _ _ hsh => exact absurd hf (by rw [← h1 _ hsh]; exact id)
  | fields _ _ _ hsh => exact absurd hf (by rw [← h1 _ hsh]; exact id)
  | array _ hsh => exact absurd hf (by rw [← h1 _ hsh]; exact id)
  | emptyArray _ hsh => exact absurd hf (by rw [← h1 _ hsh]; exact id)
  | resultOk hsh => exact absurd hf (by rw [← h1 _ hsh]; exact id)
  | resultErr hsh => exact absurd hf (by rw [← h1 _ hsh]; exact id)

theorem goNonce_inv {v : Val} {k : Int} {b : Str} (hv : Loose (α := Str) (.compact (2 ^ 64) false) v b) (h : goNonce v = .ok k) :
    AnyCompact b ∧ k = compactInt b := by
  obtain ⟨hc, rfl | ⟨h0, _⟩⟩ := hv
  · refine ⟨hc, ?_⟩
    rw [if_neg (by decide)] at h
    unfold goNonce at h
    rw [← Res.ok.inj h, compactInt, wrap64_twos]
  · cases h0

theorem sigLoop_inv : ∀ (m : List (Str × Val)) (acc text : Str), signatureOf.sigLoop acc m = .ok text →
    (m = [] ∧ text = acc ∨ .str text ∈ m.map Prod.snd) ∧ ∀ v ∈ m.map Prod.snd, ∃ t, v = .str t
  | [], acc, text, h => ⟨.inl ⟨rfl, (Res.ok.inj h).symm⟩, fun v hv => (List.not_mem_nil hv).elim⟩
  | (n, v) :: rest, acc, text, h => by
    cases v with
    | str t =>
      obtain ⟨h1, h2⟩ := sigLoop_inv rest t text h
      refine ⟨.inr ?_, ?_⟩
      · rcases h1 with ⟨rfl, rfl⟩ | h1
        · exact List.mem_singleton.2 rfl
        · exact List.mem_cons_of_mem _ h1
      · intro w hw
        rcases List.mem_cons.1 hw with rfl | hw
        · exact ⟨t, rfl⟩
        · exact h2 w hw
    | _ => cases h

theorem signatureOf_inv {raw : Val} {text : Str} (h : signatureOf raw = .ok text) : SigText raw text := by
  cases raw with
  | map m => exact sigLoop_inv m [] text h
  | _ => exact (Res.ok.inj h).symm

section
variable {shape : Str → Shape Str → Prop} {ctx : Ctx} {rec : Rec} (hr : RecInv rec) (ha : RecAcc shape ctx rec)
include hr ha

omit hr in
theorem readTip_inv {ext : Ext} {st st' : St} {d : Int × Int} (ht : ∀ sh, shape b!"Compact<Balance>" sh ↔ sh = .compact (2 ^ 128) true)
    (hs : SaneAt st) (h : readTip ext rec ctx st = .ok (d, st')) (hlt : Left st') :
    ∃ b v, Took st b st' ∧ AnyCompact b ∧ ∃ n : Int, v = Val.dec n 0 ∧ d = (n, 0) ∧
      (n = (compactNumber b % 2 ^ 128 : Nat) ∨ compactNumber b % 2 ^ 128 = 2 ^ 128 - 1 ∧ n = -1) := by
  unfold readTip at h
  rw [Res.bind_eq_ok] at h
  obtain ⟨⟨v, s1⟩, h1, h⟩ := h
  rw [Res.bind_eq_ok] at h
  obtain ⟨d', h2, h3⟩ := h
  obtain ⟨rfl, rfl⟩ := ok_inj h3
  obtain ⟨b, t, a⟩ := ha _ _ _ _ _ ((ht _).mpr rfl) hs h1 hlt
  obtain ⟨hc, hv⟩ := accepts_flat a (fun sh hsh => (ht sh).mp hsh) trivial
  refine ⟨b, v, t, hc, ?_⟩
  rcases hv with rfl | ⟨_, hn, rfl⟩
  · rw [if_pos rfl] at h2 ⊢
    refine ⟨_, rfl, ?_, .inl rfl⟩
    unfold decFromVal at h2
    exact (Res.ok.inj h2).symm
  · refine ⟨_, rfl, ?_, .inr ⟨hn, rfl⟩⟩
    unfold decFromVal at h2
    exact (Res.ok.inj h2).symm

theorem readMetaExts_inv {ext : Ext} {check : List Str} (ht : ∀ sh, shape b!"Compact<Balance>" sh ↔ sh = .compact (2 ^ 128) true) :
    ∀ (l : List (Str × Str)) (tip : Int × Int) (acc : List (Str × Val)) {st st' : St} {tip' : Int × Int} {m : List (Str × Val)},
    (∀ p ∈ l, ∃ sh, shape p.2 sh) → (acc.map Prod.fst ++ l.map Prod.fst).Nodup → SaneAt st →
    readMetaExts ext rec ctx check l tip acc st = .ok ((tip', m), st') → Left st' →
    ∃ xs : List ReadExt, Took st (xs.map (·.bytes)).flatten st' ∧ (xs.map fun x => (x.name, x.type)) = l.filter (readsExt check) ∧
      (∀ x ∈ xs, x.name ≠ b!"ChargeTransactionPayment" → Accepts shape (fun _ _ _ => True) x.type x.value x.bytes) ∧
      m = acc ++ ((xs.filter fun x => x.name ≠ b!"ChargeTransactionPayment").map fun x => (x.name, x.value)) ∧
      ((∃ x ∈ xs, x.name = b!"ChargeTransactionPayment" ∧ AnyCompact x.bytes ∧
          ∃ n : Int, x.value = .dec n 0 ∧ tip' = (n, 0) ∧
            (n = (compactNumber x.bytes % 2 ^ 128 : Nat) ∨ compactNumber x.bytes % 2 ^ 128 = 2 ^ 128 - 1 ∧ n = -1)) ∨
        (∀ x ∈ xs, x.name ≠ b!"ChargeTransactionPayment") ∧ tip' = tip)
  | [], tip, acc, st, st', tip', m, _, _, _, h, _ => by
    obtain ⟨h1, rfl⟩ := ok_inj h
    cases h1
    exact ⟨[], Took.refl _, rfl, by simp, by simp, .inr ⟨by simp, rfl⟩⟩
  | (n, t) :: l, tip, acc, st, st', tip', m, hl, hn, hs, h, hlt => by
    rw [readMetaExts] at h
    have hiff : (n ∈ enabledExts ∨ (sliceIndex n check).isSome = true) ↔ readsExt check (n, t) = true := by
      rw [sliceIndex_isSome]
      simp [readsExt, enabledExts]
    have hl' : ∀ p ∈ l, ∃ sh, shape p.2 sh := fun p hp => hl p (.tail _ hp)
    rw [List.map_cons] at hn
    by_cases he : readsExt check (n, t) = true
    · rw [if_pos (hiff.mpr he)] at h
      by_cases hp : n = b!"ChargeTransactionPayment"
      · rw [if_pos hp, Res.bind_eq_ok] at h
        obtain ⟨⟨d, s1⟩, h1, h2⟩ := h
        have hp1 := readTip_post hr ext ctx hs.1 _ _ h1
        have hs1 := hs.adv hp1
        have hl1 : Left s1 := (readMetaExts_post hr _ _ _ _ _ _ hs1.1 _ _ h2).before hlt
        obtain ⟨b, v, t1, hc, k, rfl, rfl, hk⟩ := readTip_inv ha ht hs h1 hl1
        have hnl : n ∉ l.map Prod.fst := (List.nodup_cons.mp (List.nodup_append.mp hn).2.1).1
        obtain ⟨xs, t2, e1, e2, e3, e4⟩ := readMetaExts_inv ht l _ acc hl' (hn.sublist (by simp)) hs1 h2 hlt
        have hno : ∀ x ∈ xs, x.name ≠ b!"ChargeTransactionPayment" := by
          intro x hx hxn
          have hm : (x.name, x.type) ∈ l.filter (readsExt check) := by rw [← e1]; exact List.mem_map.mpr ⟨x, hx, rfl⟩
          exact hnl (List.mem_map.mpr ⟨_, (List.mem_filter.mp hm).1, hxn.trans hp.symm⟩)
        refine ⟨⟨n, t, .dec k 0, b⟩ :: xs, by simpa using t1.trans t2, ?_, ?_, ?_, .inl ⟨_, .head _, hp, hc, k, rfl, ?_, hk⟩⟩
        · rw [List.filter_cons, if_pos he, List.map_cons, e1]
        · intro x hx hxn
          rcases List.mem_cons.mp hx with rfl | hx
          · exact absurd hp hxn
          · exact e2 x hx hxn
        · rw [e3, List.filter_cons, if_neg (by simp [hp])]
        · rcases e4 with ⟨x, hx, hxn, _⟩ | ⟨_, e⟩
          · exact absurd hxn (hno x hx)
          · exact e
      · rw [if_neg hp, Res.bind_eq_ok] at h
        obtain ⟨⟨v, s1⟩, h1, h2⟩ := h
        have hs1 := hs.adv (hr _ _ _ hs.1 _ _ h1)
        have hl1 : Left s1 := (readMetaExts_post hr _ _ _ _ _ _ hs1.1 _ _ h2).before hlt
        obtain ⟨sh, hsh⟩ := hl (n, t) (.head _)
        obtain ⟨b, t1, a1⟩ := ha _ _ _ _ _ hsh hs h1 hl1
        have hna : n ∉ acc.map Prod.fst := fun hm => (List.nodup_append.mp hn).2.2 n hm n (.head _) rfl
        dsimp only at h2
        rw [mapSet_new v hna] at h2
        obtain ⟨xs, t2, e1, e2, e3, e4⟩ := readMetaExts_inv ht l _ _ hl' (by simpa using hn) hs1 h2 hlt
        refine ⟨⟨n, t, v, b⟩ :: xs, by simpa using t1.trans t2, ?_, ?_, ?_, ?_⟩
        · rw [List.filter_cons, if_pos he, List.map_cons, e1]
        · intro x hx hxn
          rcases List.mem_cons.mp hx with rfl | hx
          · exact a1
          · exact e2 x hx hxn
        · rw [e3, List.filter_cons, if_pos (by simpa using hp), List.map_cons, List.append_assoc]; rfl
        · rcases e4 with ⟨x, hx, e⟩ | ⟨hx, e⟩
          · exact .inl ⟨x, .tail _ hx, e⟩
          · refine .inr ⟨fun x hx' => ?_, e⟩
            rcases List.mem_cons.mp hx' with rfl | hx'
            · exact hp
            · exact hx x hx'
    · rw [if_neg (fun e => he (hiff.mp e))] at h
      obtain ⟨xs, t2, e1, e⟩ := readMetaExts_inv ht l tip acc hl' (hn.sublist (by simp)) hs h hlt
      exact ⟨xs, t2, by rw [List.filter_cons, if_neg he]; exact e1, e⟩

theorem readSigned4_inv {env : Env} {md : MD} {xm : ExtrinsicMeta} {opt : ExtOpt} {st st' : St} {s : Signed} (hx : md.extrinsic = some xm)
    (hv : 14 ≤ md.version) (ho : opt.signedExtensions = []) (ht : SignedTypes shape env md xm) (hs : SaneAt st)
    (h : readSigned4 env rec ctx md opt st = .ok (s, st')) (hlt : Left st') :
    ∃ b, Took st b st' ∧ SignedBytes shape env md xm opt.additionalCheck 0x84 s b := by
  unfold readSigned4 at h
  rw [Res.bind_eq_ok] at h
  obtain ⟨⟨signer, s1⟩, h1, h⟩ := h
  rw [Res.bind_eq_ok] at h
  obtain ⟨⟨sigRaw, s2⟩, h2, h⟩ := h
  rw [Res.bind_eq_ok] at h
  obtain ⟨sig, h3, h⟩ := h
  rw [Res.bind_eq_ok] at h
  obtain ⟨⟨era, s4⟩, h4, h⟩ := h
  rw [Res.bind_eq_ok] at h
  obtain ⟨era', h5, h⟩ := h
  rw [Res.bind_eq_ok] at h
  obtain ⟨⟨nonce, s6⟩, h6, h⟩ := h
  rw [Res.bind_eq_ok] at h
  obtain ⟨nonce', h7, h⟩ := h
  rw [Res.bind_eq_ok] at h
  obtain ⟨⟨tip, s8⟩, h8, h⟩ := h
  rw [Res.bind_eq_ok] at h
  obtain ⟨⟨⟨tip', exts⟩, s9⟩, h9, h⟩ := h
  obtain ⟨rfl, rfl⟩ := ok_inj h
  unfold readTip4 at h8
  rw [hx] at h8
  dsimp only at h8
  rw [if_neg (by omega)] at h8
  obtain ⟨rfl, rfl⟩ := ok_inj h8
  unfold readExts4 at h9
  rw [if_neg (by simp [ho]), if_pos hv, hx] at h9
  have hs1 := hs.adv (hr _ _ _ hs.1 _ _ h1)
  have hs2 := hs1.adv (hr _ _ _ hs1.1 _ _ h2)
  have hs4 := hs2.adv (hr _ _ _ hs2.1 _ _ h4)
  have hs6 := hs4.adv (hr _ _ _ hs4.1 _ _ h6)
  have l6 : Left s6 := (readMetaExts_post hr _ _ _ _ _ _ hs6.1 _ _ h9).before hlt
  have l4 : Left s4 := (hr _ _ _ hs4.1 _ _ h6).before l6
  have l2 : Left s2 := (hr _ _ _ hs2.1 _ _ h4).before l4
  have l1 : Left s1 := (hr _ _ _ hs1.1 _ _ h2).before l2
  obtain ⟨_, q1⟩ := ht.signer
  obtain ⟨_, q2⟩ := ht.signature
  obtain ⟨sb, t1, a1⟩ := ha _ _ _ _ _ q1 hs h1 l1
  obtain ⟨gb, t2, a2⟩ := ha _ _ _ _ _ q2 hs1 h2 l2
  obtain ⟨eb, t4, a4⟩ := ha _ _ _ _ _ ((ht.era _).mpr rfl) hs2 h4 l4
  obtain ⟨nb, t6, a6⟩ := ha _ _ _ _ _ ((ht.nonce _).mpr rfl) hs4 h6 l6
  obtain ⟨xs, t9, e1, e2, e3, e4⟩ := readMetaExts_inv hr ha ht.tip _ _ _ ht.exts (by simpa using ht.names) hs6 h9 hlt
  obtain ⟨f1, rfl⟩ := accepts_flat a4 (fun sh h => (ht.era sh).mp h) trivial
  obtain ⟨n1, n2⟩ := goNonce_inv (accepts_flat a6 (fun sh h => (ht.nonce sh).mp h) trivial) h7
  obtain rfl : hexText eb = era' := Res.ok.inj h5
  refine ⟨_, t1.trans (t2.trans (t4.trans (t6.trans t9))), sb, gb, [], eb, nb, _, rfl, a1, a2, signatureOf_inv h3, .inl ⟨rfl, rfl, rfl⟩, f1, rfl, n1, n2, xs, e1, rfl, e2,
    by simpa using e3, e4⟩

theorem readSigned5_inv {env : Env} {md : MD} {xm : ExtrinsicMeta} {opt : ExtOpt} {st st' : St} {s : Signed} (hx : md.extrinsic = some xm)
    (ht : SignedTypes shape env md xm) (hs : SaneAt st)
    (h : readSigned5 env rec ctx md opt st = .ok (s, st')) (hlt : Left st') :
    ∃ b, Took st b st' ∧ SignedBytes shape env md xm opt.additionalCheck 0x85 s b := by
  unfold readSigned5 at h
  rw [Res.bind_eq_ok] at h
  obtain ⟨⟨signer, s1⟩, h1, h⟩ := h
  rw [Res.bind_eq_ok] at h
  obtain ⟨⟨sigRaw, s2⟩, h2, h⟩ := h
  rw [Res.bind_eq_ok] at h
  obtain ⟨⟨ev, s3⟩, h3, h⟩ := h
  rw [Res.bind_eq_ok] at h
  obtain ⟨ev', h3', h⟩ := h
  rw [Res.bind_eq_ok] at h
  obtain ⟨sig, h3'', h⟩ := h
  rw [Res.bind_eq_ok] at h
  obtain ⟨⟨era, s4⟩, h4, h⟩ := h
  rw [Res.bind_eq_ok] at h
  obtain ⟨era', h5, h⟩ := h
  rw [Res.bind_eq_ok] at h
  obtain ⟨⟨nonce, s6⟩, h6, h⟩ := h
  rw [Res.bind_eq_ok] at h
  obtain ⟨nonce', h7, h⟩ := h
  rw [Res.bind_eq_ok] at h
  obtain ⟨⟨⟨tip', exts⟩, s9⟩, h9, h⟩ := h
  obtain ⟨rfl, rfl⟩ := ok_inj h
  unfold readExts5 at h9
  rw [hx] at h9
  have hs1 := hs.adv (hr _ _ _ hs.1 _ _ h1)
  have hs2 := hs1.adv (hr _ _ _ hs1.1 _ _ h2)
  have hs3 := hs2.adv (hr _ _ _ hs2.1 _ _ h3)
  have hs4 := hs3.adv (hr _ _ _ hs3.1 _ _ h4)
  have hs6 := hs4.adv (hr _ _ _ hs4.1 _ _ h6)
  have l6 : Left s6 := (readMetaExts_post hr _ _ _ _ _ _ hs6.1 _ _ h9).before hlt
  have l4 : Left s4 := (hr _ _ _ hs4.1 _ _ h6).before l6
  have l3 : Left s3 := (hr _ _ _ hs3.1 _ _ h4).before l4
  have l2 : Left s2 := (hr _ _ _ hs2.1 _ _ h3).before l3
  have l1 : Left s1 := (hr _ _ _ hs1.1 _ _ h2).before l2
  obtain ⟨_, q1⟩ := ht.signer
  obtain ⟨_, q2⟩ := ht.signature
  obtain ⟨sb, t1, a1⟩ := ha _ _ _ _ _ q1 hs h1 l1
  obtain ⟨gb, t2, a2⟩ := ha _ _ _ _ _ q2 hs1 h2 l2
  obtain ⟨ub, t3, a3⟩ := ha _ _ _ _ _ ((ht.version _).mpr rfl) hs2 h3 l3
  obtain ⟨eb, t4, a4⟩ := ha _ _ _ _ _ ((ht.era _).mpr rfl) hs3 h4 l4
  obtain ⟨nb, t6, a6⟩ := ha _ _ _ _ _ ((ht.nonce _).mpr rfl) hs4 h6 l6
  obtain ⟨xs, t9, e1, e2, e3, e4⟩ := readMetaExts_inv hr ha ht.tip _ _ _ ht.exts (by simpa using ht.names) hs6 h9 hlt
  obtain ⟨f1, rfl⟩ := accepts_flat a4 (fun sh h => (ht.era sh).mp h) trivial
  obtain ⟨u1, rfl⟩ := accepts_flat a3 (fun sh h => (ht.version sh).mp h) trivial
  obtain ⟨n1, n2⟩ := goNonce_inv (accepts_flat a6 (fun sh h => (ht.nonce sh).mp h) trivial) h7
  obtain rfl : hexText eb = era' := Res.ok.inj h5
  obtain ⟨u, rfl⟩ := List.length_eq_one_iff.mp u1
  obtain rfl : ((leSum [u] : Nat) : Int) = ev' := Res.ok.inj h3'
  refine ⟨_, t1.trans (t2.trans (t3.trans (t4.trans (t6.trans t9)))), sb, gb, [u], eb, nb, _, rfl, a1, a2, signatureOf_inv h3'', .inr ⟨rfl, u, rfl, ?_⟩, f1, rfl, n1, n2, xs, e1,
    rfl, e2, by simpa using e3, e4⟩
  simp [leSum]

end

/-- The length before an extrinsic, if it is there. -/
def LengthFirst (pre : Str) (len : Int) (body : Nat) : Prop :=
  pre = [] ∧ len = 0 ∨ AnyCompact pre ∧ compactInt pre = body ∧ len = body

/-- A signed extrinsic that is returned consists, in this order, of its length if that is there, the version byte, and the bytes of
signer, signature, version of the extensions, era, nonce and extensions; then comes the call. Nothing else is returned. -/
theorem C118_signed (env : Env) (fuel : Nat) (md : MD) (opt : ExtOpt) (data : Str) (x : Extrinsic) (st : St) (s : Signed)
    (shape : Str → Shape Str → Prop) (ectx : ECtx) (xm : ExtrinsicMeta) (hL : LenOK env ⟨opt.module, opt.spec, some md⟩)
    (hd : Describes env ⟨opt.module, opt.spec, some md⟩ ectx shape) (hw : Whole shape)
    (hli : AllListed env ⟨opt.module, opt.spec, some md⟩ shape) (hx : md.extrinsic = some xm) (hv : 14 ≤ md.version)
    (ho : opt.signedExtensions = []) (ht : SignedTypes shape env md xm) (hsize : data.length < 2 ^ 48)
    (h : decodeExtrinsic env fuel md opt data = .ok (x, st)) (hsig : x.signed = some s) :
    ∃ pre v b i rest, data = pre ++ v :: (b ++ i :: rest) ∧ x.version = hexText [v] ∧
      LengthFirst pre x.length (v :: (b ++ i :: rest)).length ∧ SignedBytes shape env md xm opt.additionalCheck v s b := by
  have hr := pau_post env fuel
  have ha : RecAcc shape ⟨opt.module, opt.spec, some md⟩ (pau env fuel) := fun ty sh st st' v hsh hst h hlt =>
    decoded_accepted hL hd hw hli fuel ty sh st st' v hsh hst h hlt
  unfold decodeExtrinsic processExtrinsic at h
  dsimp only at h
  rw [Res.bind_eq_ok] at h
  obtain ⟨⟨len, s1⟩, h1, h⟩ := h
  rw [Res.bind_eq_ok] at h
  obtain ⟨⟨vb, s2⟩, h2, h⟩ := h
  rw [Res.bind_eq_ok] at h
  obtain ⟨⟨sg, s3⟩, h3, h⟩ := h
  rw [Res.bind_eq_ok] at h
  obtain ⟨⟨⟨idx, e, ps, raw⟩, s4⟩, h4, h⟩ := h
  obtain ⟨rfl, rfl⟩ := ok_inj h
  dsimp only at hsig ⊢
  subst hsig
  -- the call index is there
  have l3 : Left s3 := by
    unfold readCall at h4
    rw [Res.bind_eq_ok] at h4
    obtain ⟨⟨cb, s5⟩, h5, h4⟩ := h4
    refine nextBytes_some h5 fun hn => ?_
    subst hn
    exact absurd h4 (by simp [bytesToHex])
  -- the length
  have hs0 : SaneAt (⟨⟨data, 0⟩, []⟩ : St) := ⟨Nat.zero_le _, hsize⟩
  have hlen : SaneAt s1 ∧ (Left s1 → ∃ pre, Took ⟨⟨data, 0⟩, []⟩ pre s1 ∧
      (pre = [] ∧ len = 0 ∨ AnyCompact pre ∧ compactInt pre = remaining s1.cur ∧ len = remaining s1.cur)) := by
    unfold readLength at h1
    rw [Res.bind_eq_ok] at h1
    obtain ⟨⟨v, s0⟩, k1, h1⟩ := h1
    rw [Res.bind_eq_ok] at h1
    obtain ⟨n, k2, h1⟩ := h1
    have hp := hr _ _ _ hs0.1 _ _ k1
    split at h1
    · obtain ⟨rfl, rfl⟩ := ok_inj h1
      refine ⟨⟨Nat.zero_le _, ?_⟩, fun _ => ⟨[], ⟨hp.1, rfl, _, rfl⟩, .inl ⟨rfl, rfl⟩⟩⟩
      show s0.cur.data.length < 2 ^ 48
      rw [hp.1]; exact hsize
    · rename_i hne
      obtain ⟨rfl, rfl⟩ := ok_inj h1
      refine ⟨hs0.adv hp, fun hl => ?_⟩
      obtain ⟨c, t, hc, rfl⟩ := len_inv hL hs0 k1 hl
      obtain rfl : compactInt c = _ := Res.ok.inj k2
      exact ⟨c, t, .inr ⟨hc, by omega, by omega⟩⟩
  obtain ⟨hs1, hlen⟩ := hlen
  have hs2 := nextBytes_sane hs1 h2
  -- the part that the version selects
  have hsg : ∃ v b, vb = [v] ∧ Took s1 (v :: b) s3 ∧ SignedBytes shape env md xm opt.additionalCheck v s b := by
    have key : ∀ v b, bytesToHex vb = bytesToHex [v] → Left s2 → Took s2 b s3 → SignedBytes shape env md xm opt.additionalCheck v s b →
        ∃ v b, vb = [v] ∧ Took s1 (v :: b) s3 ∧ SignedBytes shape env md xm opt.additionalCheck v s b := by
      intro v b e l t hb
      obtain ⟨y, rfl, ty⟩ := byte_inv hs1 h2 l
      obtain rfl := (hexText_one _ _).mp e
      exact ⟨y, b, rfl, ty.trans t, hb⟩
    unfold readSigned at h3
    split at h3
    · cases h3
    · split at h3
      · rename_i e
        rw [Res.bind_eq_ok] at h3
        obtain ⟨⟨s', s5⟩, k, h3⟩ := h3
        obtain ⟨e', rfl⟩ := ok_inj h3
        cases e'
        obtain ⟨b, t, hb⟩ := readSigned4_inv hr ha hx hv ho ht hs2 k l3
        exact key 0x84 b e ((readSigned4_post hr _ _ _ _ hs2.1 _ _ k).before l3) t hb
      · split at h3
        · rename_i e
          rw [Res.bind_eq_ok] at h3
          obtain ⟨⟨s', s5⟩, k, h3⟩ := h3
          obtain ⟨e', rfl⟩ := ok_inj h3
          cases e'
          obtain ⟨b, t, hb⟩ := readSigned5_inv hr ha hx ht hs2 k l3
          exact key 0x85 b e ((readSigned5_post hr _ _ _ _ hs2.1 _ _ k).before l3) t hb
        · cases h3
  obtain ⟨v, b, rfl, t, hb⟩ := hsg
  have hl1 : Left s1 := by
    obtain ⟨t1, t2, _⟩ := t
    have := l3
    unfold Left at this ⊢
    rw [t1] at this
    omega
  obtain ⟨pre, tp, hpre⟩ := hlen hl1
  obtain ⟨q1, q2, suf, q3⟩ := tp.trans t
  have hsuf : suf ≠ [] := by
    rintro rfl
    have := l3
    unfold Left at this
    rw [q1, q2] at this
    have e : data = pre ++ v :: b := by simpa using q3
    rw [← e] at this
    exact absurd this (by simp)
  obtain ⟨i, rest, rfl⟩ := List.exists_cons_of_ne_nil hsuf
  have hdata : data = pre ++ v :: (b ++ i :: rest) := by simpa using q3
  refine ⟨pre, v, b, i, rest, hdata, bytesToHex_eq_spec [v], ?_, hb⟩
  have hrem : remaining s1.cur = (v :: (b ++ i :: rest)).length := by
    unfold remaining
    rw [tp.1, tp.2.1]
    show ((data.length : Int) - ((0 + pre.length : Nat) : Int)) = _
    rw [hdata, List.length_append]
    omega
  rw [hrem] at hpre
  exact hpre

/-- The account that the model reports is one that Go may report. -/
theorem addressOf_reported (signer : Val) : Reported signer (addressOf signer) := by
  cases signer with
  | map m =>
    unfold Reported addressOf
    cases h : m.getLast? with
    | none => exact .inl ⟨List.getLast?_eq_none_iff.1 h, by simp [h]⟩
    | some a => exact .inr (by simpa [h] using List.mem_of_getLast? h)
  | _ => rfl

/-- If the signer type is an enum, Go reports, in whatever order it goes through the map, the variant that the first byte of the signer
names, and its value. -/
theorem C118_account (shape : Str → Shape Str → Prop) (ty : Str) (vs : List (Nat × Str × Payload Str)) (signer : Val) (b : Str)
    (h1 : ∀ sh, shape ty sh → sh = .enum vs) (h : Accepts shape (fun _ _ _ => True) ty signer b) :
    ∃ (x : UInt8) (name : Str) (pl : Payload Str) (r : Val) (c : Str), b = x :: c ∧ (x.toNat, name, pl) ∈ vs ∧
      (∀ t, pl = .one t → Accepts shape (fun _ _ _ => True) t r c) ∧ signer = .map [(name, r)] ∧ addressOf signer = (name, r) ∧
      ∀ a, Reported signer a ↔ a = (name, r) := by
  have rep : ∀ (name : Str) (r : Val) a, Reported (.map [(name, r)]) a ↔ a = (name, r) := fun name r a => by
    show (_ = [] ∧ _ ∨ a ∈ [_]) ↔ _
    simp
  cases h with
  | leaf hsh hl _ => rw [h1 _ hsh] at hl; exact hl.elim
  | seq _ hsh => cases h1 _ hsh
  | none hsh => cases h1 _ hsh
  | some _ hsh => cases h1 _ hsh
  | struct _ hsh => cases h1 _ hsh
  | variant x name hsh hm ha =>
    cases h1 _ hsh
    exact ⟨x, name, _, _, _, rfl, hm, fun t e => by cases e; exact ha, rfl, rfl, rep _ _⟩
  | fields x name ps hsh hm ha =>
    cases h1 _ hsh
    exact ⟨x, name, _, _, _, rfl, hm, (fun t e => by cases e), rfl, rfl, rep _ _⟩
  | array _ hsh => cases h1 _ hsh
  | emptyArray _ hsh => cases h1 _ hsh
  | resultOk hsh => cases h1 _ hsh
  | resultErr hsh => cases h1 _ hsh

/-- If it is a plain account id, Go reports its hex text as an `AccountId`. -/
theorem C118_plain (shape : Str → Shape Str → Prop) (ty : Str) (signer : Val) (b : Str) (h1 : ∀ sh, shape ty sh → sh = .account)
    (h : Accepts shape (fun _ _ _ => True) ty signer b) :
    b.length = 32 ∧ ∀ a, Reported signer a ↔ a = (b!"AccountId", .str (b!"0x" ++ hexText b)) := by
  obtain ⟨h2, rfl⟩ := accepts_flat h h1 trivial
  exact ⟨h2, fun a => Iff.rfl⟩

/-! ## An extrinsic -/

def xShape : Str → Shape Str → Prop :=
  tableShape [(b!"ExtrinsicSigner", .hash 2), (b!"ExtrinsicSignature", .hash 2), (b!"EraExtrinsic", .era),
    (b!"Compact<U64>", .compact (2 ^ 64) false), (b!"Compact<Balance>", .compact (2 ^ 128) true), (b!"U8", .uint 1), (b!"u8", .uint 1),
    (b!"Compact<u32>", .compact32)]

def xCtx : Ctx := ⟨[], 0, some (rtMD rtGood)⟩

theorem x_describes : Describes rtEnv xCtx ECtx.none xShape := by
  refine describes_table fun p hp => ?_
  simp only [List.mem_cons, List.not_mem_nil, or_false] at hp
  rcases hp with rfl | rfl | rfl | rfl | rfl | rfl | rfl | rfl
  · exact .inl ⟨.hash 2, [], [], by unfold Resolves; kernel_rfl, ⟨by unfold Resolves; kernel_rfl, by decide⟩, rfl⟩
  · exact .inl ⟨.hash 2, [], [], by unfold Resolves; kernel_rfl, ⟨by unfold Resolves; kernel_rfl, by decide⟩, rfl⟩
  · exact .inl ⟨.era, [], [], by unfold Resolves; kernel_rfl, ⟨by unfold Resolves; kernel_rfl, by decide⟩, rfl⟩
  · exact .inl ⟨.compact [], b!"U64", b!"U64", by unfold Resolves; kernel_rfl, ⟨by unfold Resolves; kernel_rfl, by decide⟩, [], .u64, [], rfl, by decide,
      by simp [compactKinds], by unfold Resolves; kernel_rfl⟩
  · exact .inl ⟨.compact [], b!"Balance", b!"Balance", by unfold Resolves; kernel_rfl, ⟨by unfold Resolves; kernel_rfl, by decide⟩, [], .balance, [], rfl,
      by decide, by simp [compactKinds], by unfold Resolves; kernel_rfl⟩
  · exact .inl ⟨.u8, [], [], by unfold Resolves; kernel_rfl, ⟨by unfold Resolves; kernel_rfl, by decide⟩, by decide, rfl⟩
  · exact .inl ⟨.u8, [], [], by unfold Resolves; kernel_rfl, ⟨by unfold Resolves; kernel_rfl, by decide⟩, by decide, rfl⟩
  · exact .inl ⟨.compactU32, [], [], by unfold Resolves; kernel_rfl, ⟨by unfold Resolves; kernel_rfl, by decide⟩, rfl⟩

theorem x_flat (ty : Str) (sh : Shape Str) (h : xShape ty sh) : Flat sh ∧ Tidy sh ∧ ∀ vs, sh ≠ .enum vs := by
  simp only [xShape, tableShape, List.mem_cons, List.not_mem_nil, or_false, Prod.mk.injEq] at h
  rcases h with ⟨_, rfl⟩ | ⟨_, rfl⟩ | ⟨_, rfl⟩ | ⟨_, rfl⟩ | ⟨_, rfl⟩ | ⟨_, rfl⟩ | ⟨_, rfl⟩ | ⟨_, rfl⟩ <;>
    exact ⟨trivial, by first | trivial | exact (by decide : (2 : Nat) < 2 ^ 63), nofun⟩

theorem x_whole : Whole xShape := by
  intro ty sh h
  obtain ⟨h1, h2, _⟩ := x_flat ty sh h
  refine ⟨fun t ht => ?_, h2⟩
  cases sh <;> first | exact h1.elim | exact (List.not_mem_nil ht).elim

theorem x_types : SignedTypes xShape rtEnv (rtMD rtGood) ⟨rtGood.map (·.1), rtGood⟩ where
  signer := ⟨.hash 2, by rw [show signerType rtEnv (rtMD rtGood) = b!"ExtrinsicSigner" by kernel_rfl]; simp [xShape, tableShape]⟩
  signature := ⟨.hash 2, by simp [xShape, tableShape]⟩
  era := fun sh => by simp [xShape, tableShape]
  nonce := fun sh => by simp [xShape, tableShape]
  tip := fun sh => by simp [xShape, tableShape]
  version := fun sh => by simp [xShape, tableShape]
  exts := fun p hp => by
    simp only [rtGood, List.mem_cons, List.not_mem_nil, or_false] at hp
    rcases hp with rfl | rfl | rfl
    · exact ⟨.uint 1, by simp [xShape, tableShape]⟩
    · exact ⟨.compact32, by simp [xShape, tableShape]⟩
    · exact ⟨.uint 1, by simp [xShape, tableShape]⟩
  names := by decide

/-- A signed extrinsic: length 12, version, signer, signature, era, nonce 0, tip 1, asset payment 8, call 0000 with 7. -/
def xData : Str := [48, 132, 170, 170, 187, 187, 0, 0, 4, 8, 0, 0, 7]

def xSigned : Signed :=
  ⟨.str b!"0xaaaa", .str b!"0xbbbb", b!"0xbbbb", 0, b!"00", 0, (1, 0), [(b!"ChargeAssetTxPayment", .int 8)]⟩

def xOut (len : Int) : Extrinsic := ⟨len, b!"84", some xSigned, b!"0000", b!"M", b!"c", [(b!"x", b!"u8", .int 7)], b!"07"⟩

theorem x_decoded : decodeExtrinsic rtEnv 9 (rtMD rtGood) rtOpt xData = .ok (xOut 12, ⟨⟨xData, 13⟩, []⟩) := by kernel_rfl

/-- The hypotheses of `C118_signed` are met. -/
example : ∃ pre v b i rest, xData = pre ++ v :: (b ++ i :: rest) ∧ b!"84" = hexText [v] ∧ LengthFirst pre 12 (v :: (b ++ i :: rest)).length ∧
    SignedBytes xShape rtEnv (rtMD rtGood) ⟨rtGood.map (·.1), rtGood⟩ [] v xSigned b :=
  C118_signed rtEnv 9 (rtMD rtGood) rtOpt xData (xOut 12) _ xSigned xShape ECtx.none _ (rt_lens rtGood).1 x_describes x_whole
    (fun ty vs h => absurd rfl ((x_flat ty _ h).2.2 vs)) rfl (by decide) rfl x_types (by decide) x_decoded rfl

/-- The bytes are not determined by the extrinsic: nonce and tip may be written in two bytes each. -/
theorem C118_two_texts : ∃ (a b : Str) (s s' : St), a ≠ b ∧ decodeExtrinsic rtEnv 9 (rtMD rtGood) rtOpt a = .ok (xOut 0, s) ∧
    decodeExtrinsic rtEnv 9 (rtMD rtGood) rtOpt b = .ok (xOut 0, s') :=
  ⟨[132, 170, 170, 187, 187, 0, 0, 4, 8, 0, 0, 7], [132, 170, 170, 187, 187, 0, 1, 0, 5, 0, 8, 0, 0, 7],
    ⟨⟨[132, 170, 170, 187, 187, 0, 0, 4, 8, 0, 0, 7], 12⟩, []⟩, ⟨⟨[132, 170, 170, 187, 187, 0, 1, 0, 5, 0, 8, 0, 0, 7], 14⟩, []⟩,
    by decide, by kernel_rfl, by kernel_rfl⟩

/-- A signer given as an enum: the variant and its value are what is reported. -/
example : ∃ (x : UInt8) (name : Str) (pl : Payload Str) (r : Val) (c : Str), ([1, 3, 0] : Str) = x :: c ∧
    (x.toNat, name, pl) ∈ [(0, b!"Id", Payload.one b!"H256"), (1, b!"Index", .one b!"u16")] ∧
    (∀ t, pl = .one t → Accepts (tableShape [(b!"A", .enum [(0, b!"Id", .one b!"H256"), (1, b!"Index", .one b!"u16")]), (b!"u16", .uint 2)])
      (fun _ _ _ => True) t r c) ∧
    Val.map [(b!"Index", .uint 2 3)] = .map [(name, r)] ∧ addressOf (.map [(b!"Index", .uint 2 3)]) = (name, r) ∧
    ∀ a, Reported (.map [(b!"Index", .uint 2 3)]) a ↔ a = (name, r) :=
  C118_account _ b!"A" _ _ _ (fun sh h => by simpa [tableShape] using h)
    (.variant (t := b!"u16") 1 b!"Index" (by simp [tableShape]; rfl) (by simp)
      (.leaf (sh := .uint 2) (by simp [tableShape]) ⟨rfl, by rfl⟩ trivial))

end ScaleGo
