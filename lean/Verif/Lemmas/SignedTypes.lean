import Verif.Lemmas.PortableScale

/-! # The types of signer and signature

`ProcessSiType` enters the parameters `Signature` and `Address` of the extrinsic type under two fixed names. -/

namespace ScaleGo
open _root_.Spec (Shape Payload Part Scale)
open ScaleGo.Spec

section
variable {cfg : SiCfg} {A : Nat → Prop} {base : Str → Option Cls}

/-- Definitions over a later table are definitions over the first one. -/
theorem Def.lift {base' : Str → Option Cls} (h1 : ∀ k c, base' k = some c → base k = some c ∨ Def cfg A base k c)
    (h2 : ∀ k, base' k = none → base k = none) {k : Str} {c : Cls} (h : Def cfg A base' k c) : Def cfg A base k c := by
  induction h with
  | struct a b c d e => exact .struct a b c d e
  | enum a b c d e => exact .enum a b c d e
  | tuple a b c => exact .tuple a b c
  | aliasBase a b c => exact (h1 _ _ c).elim (.aliasBase a b) (.aliasDef a b)
  | aliasDef a b _ ih => exact .aliasDef a b ih
  | aliasForm a b c => exact .aliasForm a (h2 _ b) c

/-- A step leaves an entry or makes one that the portable types describe. -/
theorem step_entry (hu : Unversioned cfg) {a b : SiState} (h : Step cfg A a b) (hs : EnvSound cfg A base a) {k : Str} {c : Cls}
    (hc : b.reg.env.reg k = some c) : a.reg.env.reg k = some c ∨ Def cfg A base k c := by
  have h0 : EnvSound cfg A a.reg.env.reg a := ⟨fun _ _ h => .inl h, fun _ h => h⟩
  exact ((EnvSound.step hu h h0).entry k c hc).imp id (Def.lift hs.entry hs.keeps)

/-- An alias of an available text replaces the entry. -/
theorem alias_replaces {st st' : SiState} {key s : Str} (hr : st.register cfg key { kind := b!"string", typeString := s } = .ok st')
    (hh : (35 : UInt8) ∉ key) (ha : Avail st s) :
    ∃ c, st'.reg.env.reg (toLower key) = some c ∧ (st.reg.env.reg (toLower (convertType s)) = some c ∨ st.reg.env.reg (toLower s) = some c ∨
      st.reg.env.reg (toLower (convertType s)) = none ∧ aliasClass (convertType s) = .ok (some c)) := by
  have hr := (register_eq hr).1
  have hh' : (35 : UInt8) ∉ toLower key := hash_lower hh
  rcases regOne_cases (fuel := cfg.eqFuel) (st := st.reg) (key := key) (d := { kind := b!"string", typeString := s }) (fun h => by cases h) with
    ⟨h1, _⟩ | ⟨h1, _⟩ | ⟨_, e⟩
  · cases h1
  · cases h1
  rw [e, if_pos rfl] at hr
  have ht : st.reg.env.reg (toLower (convertType s)) = none → regAliasText st.reg (toLower key) (convertType s) = .ok st'.reg →
      ∃ c, st'.reg.env.reg (toLower key) = some c ∧ aliasClass (convertType s) = .ok (some c) := by
    intro h0 h
    rcases ha with ha | ⟨c, ha⟩
    · rw [h0] at ha; cases ha
    · unfold regAliasText at h
      rw [ha] at h
      replace h := Res.ok.inj h
      rw [← h]
      exact ⟨c, regCustomKey_set hh', ha⟩
  unfold regAlias at hr
  simp only at hr
  split at hr
  · next c hc =>
    replace hr := Res.ok.inj hr
    rw [← hr]
    exact ⟨c, regCustomKey_set hh', .inl hc⟩
  · next hnone =>
    have last : regAliasText st.reg (toLower key) (convertType s) = .ok st'.reg →
      ∃ c, st'.reg.env.reg (toLower key) = some c ∧ (st.reg.env.reg (toLower (convertType s)) = some c ∨ st.reg.env.reg (toLower s) = some c ∨
      st.reg.env.reg (toLower (convertType s)) = none ∧ aliasClass (convertType s) = .ok (some c)) := by
      intro h
      obtain ⟨c, h1, h2⟩ := ht hnone h
      exact ⟨c, h1, .inr (.inr ⟨hnone, h2⟩)⟩
    split at hr
    · next e he =>
      have hed : e = { kind := b!"string", typeString := s } := by
        unfold tableGet at he
        split at he
        · cases he; rfl
        · cases he
      subst hed
      rw [if_pos rfl] at hr
      split at hr
      · next c hc =>
        replace hr := Res.ok.inj hr
        rw [← hr]
        exact ⟨c, regCustomKey_set hh', .inr (.inl hc)⟩
      · exact last hr
    · exact last hr

/-- The parameter has been entered under the key. -/
def ParamEntered (cfg : SiCfg) (A : Nat → Prop) (base : Str → Option Cls) (key : Str) (i : Nat) (st : SiState) : Prop :=
  ∀ sh, Covered cfg A i sh → Aliased cfg A sh → ∃ c, st.reg.env.reg (toLower key) = some c ∧ Def cfg A base (toLower key) c

theorem paramKey_alias {key : Str} {i : Nat} {s : Str} (h : ParamOf cfg key i) (ht : Text cfg A i s) : Alias cfg A key s := by
  obtain ⟨x, name, hx, ⟨rfl, rfl⟩ | ⟨rfl, rfl⟩, hf⟩ := h
  · exact .signature ⟨x, _, hx, .inl ⟨rfl, rfl⟩, hf⟩ ht
  · exact .signer ⟨x, _, hx, .inr ⟨rfl, rfl⟩, hf⟩ ht

theorem tracks_params (hT : Tidy cfg A base) (hS : Stock base) :
    Tracks cfg A (fun st => EnvSound cfg A base st ∧ Complete cfg A st) (ParamEntered cfg A base) where
  inv := fun h hi => ⟨EnvSound.step hT.unversioned h.plain hi.1, Complete.step hT hS h.plain hi.1 hi.2⟩
  kept := by
    intro a b key i h hi hp sh hc ha
    obtain ⟨c, h1, h2⟩ := hp sh hc ha
    obtain ⟨c', h3⟩ := Option.isSome_iff_exists.1 (step_mono hT.unversioned h.plain (k := toLower key) (by rw [h1]; rfl))
    refine ⟨c', h3, ?_⟩
    rcases step_entry hT.unversioned h.plain hi.1 h3 with h | h
    · rw [h1] at h; cases h; exact h2
    · exact h
  done := by
    intro st st' key i s hp ht hids hi hr sh hc ha
    have hh : (35 : UInt8) ∉ key := by
      obtain ⟨x, name, hx, ⟨rfl, rfl⟩ | ⟨rfl, rfl⟩, hf⟩ := hp <;> decide
    obtain ⟨c, h1, h2⟩ := alias_replaces hr hh (field_avail hT hS hi.1 hi.2 ht hids hc ha)
    have hal := paramKey_alias hp ht
    refine ⟨c, h1, ?_⟩
    rcases h2 with h | h | ⟨h, h'⟩
    · exact (hi.1.entry _ _ h).elim (.aliasBase hal (.inl rfl)) (.aliasDef hal (.inl rfl))
    · exact (hi.1.entry _ _ h).elim (.aliasBase hal (.inr rfl)) (.aliasDef hal (.inr rfl))
    · exact .aliasForm hal (hi.1.keeps _ h) h'

/-- The text of the extrinsic type is entered by the steps of a struct or a newtype only. -/
theorem direct_not_extrinsic {i : Nat} {t : Str} (h : Direct cfg A i t) (hx : IsExtrinsic (cfg.types i)) {fs : List SiField}
    (ht : (cfg.types i).typ = .composite fs) : False := by
  cases h with
  | override _ h =>
    refine h ?_
    unfold overriderTypesName
    rw [ht]
    have hj : ∀ s : Str, s.head? = some 115 → (s.drop 2).head? ≠ some 95 → joinSep b!":" (cfg.types i).path ≠ s := by
      intro s h1 h2 e
      obtain ⟨_, h3, _⟩ := hx
      cases hp : (cfg.types i).path with
      | nil => rw [hp] at h3; cases h3
      | cons a as =>
        rw [hp] at h3 e
        cases h3
        cases as with
        | nil => rw [← e] at h2; exact h2 (by decide)
        | cons b bs => rw [← e] at h2; exact h2 (by simp [joinSep])
    match fs with
    | [] => rfl
    | [f] =>
      simp only
      rw [if_neg fun h => hj b!"substrate_fixed:FixedU64" (by decide) (by decide) h.1,
        if_neg fun h => hj b!"substrate_fixed:FixedI128" (by decide) (by decide) h.1]
    | _ :: _ :: _ => rfl
  | account _ _ h => rw [hx.2.2] at h; exact absurd h (by decide)
  | wrapper _ _ h _ _ => rcases h.2 with h | h <;> rw [hx.2.2] at h <;> exact absurd h (by decide)
  | _ => simp_all

/-- Once the text of the extrinsic type is entered, so are its parameters. -/
theorem process_params (hE : EarlyOK cfg A) {fuel : Nat} {reg : RegState} {st : SiState}
    (h : registerTypes cfg fuel ⟨reg, fun _ => none⟩ = .ok st) (hT : Tidy cfg A reg.env.reg) (hS : Stock reg.env.reg)
    (hv : cfg.v14 = true → ∀ n, reg.v14 n = none) {x : Nat} (hlt : x < cfg.count) (hx : IsExtrinsic (cfg.types x)) {fs : List SiField}
    (ht : (cfg.types x).typ = .composite fs) : ParamsDone cfg (ParamEntered cfg A reg.env.reg) x st := by
  have h0 : ∀ i t, (⟨reg, fun _ => none⟩ : SiState).ids i = some t → Text cfg A i t := fun _ _ h => by cases h
  have hI := tracks_params hT hS
  have hi : EnvSound cfg A reg.env.reg ⟨reg, fun _ => none⟩ ∧ Complete cfg A ⟨reg, fun _ => none⟩ := by
    refine ⟨⟨fun k c h => .inl h, fun _ h => h⟩, ⟨?_, ?_, ?_, ?_⟩⟩
    · intro h14 k _ _ h; rw [hv h14] at h; cases h
    · intro _ _ _ h; cases h
    · rintro _ _ _ _ (⟨h14, h⟩ | h)
      · rw [hv h14] at h; cases h
      · cases h
    · intro _ _ _ _ _ h; cases h
  have hs := registerTypes_stepsP hE hI h hi h0
  have hq : (EnvSound cfg A reg.env.reg st ∧ Complete cfg A st) ∧ ((st.ids x).isSome = true → ParamsDone cfg (ParamEntered cfg A reg.env.reg) x st) := by
    refine hs.inv (Q := fun st => (EnvSound cfg A reg.env.reg st ∧ Complete cfg A st) ∧
      ((st.ids x).isSome = true → ParamsDone cfg (ParamEntered cfg A reg.env.reg) x st)) ?_ ⟨hi, fun h => by cases h⟩
    rintro a b hs ⟨h1, h2⟩
    refine ⟨hI.inv hs h1, fun hb => ?_⟩
    have keep : ParamsDone cfg (ParamEntered cfg A reg.env.reg) x a → ParamsDone cfg (ParamEntered cfg A reg.env.reg) x b :=
      fun h hx key name i hk hf => hI.kept hs h1 (h hx key name i hk hf)
    refine keep ?_
    have set : ∀ {j t}, b.ids = (a.setId j t).ids → (j = x → ParamsDone cfg (ParamEntered cfg A reg.env.reg) x a) →
        ParamsDone cfg (ParamEntered cfg A reg.env.reg) x a := by
      intro j t e hj
      by_cases e' : j = x
      · exact hj e'
      · rw [e] at hb
        simp only [SiState.setId, if_neg (Ne.symm e')] at hb
        exact h2 hb
    have reg_ids : ∀ {j t key d} {s s' : SiState}, s.register cfg key d = .ok s' → s.ids = a.ids → (s'.setId j t).ids = (a.setId j t).ids := by
      intro j t key d s s' hr e
      simp only [SiState.setId, (register_eq hr).2, e]
    cases hs with
    | set hd => exact set rfl fun e => by subst e; exact (direct_not_extrinsic hd hx ht).elim
    | struct _ _ _ _ _ _ hr hd => exact set (reg_ids hr rfl) fun e => by subst e; exact hd
    | enum _ h _ _ _ hr => exact set (reg_ids hr rfl) fun e => by subst e; rw [ht] at h; cases h
    | newtype _ _ _ _ _ hr hd => exact set (register_eq hr).2 fun e => by subst e; exact hd
    | tuple _ h _ _ hr => exact set (reg_ids hr rfl) fun e => by subst e; rw [ht] at h; cases h
    | primitive hp _ hr =>
      refine set (register_eq hr).2 fun e => ?_
      subst e
      rcases hp with h | ⟨h, _⟩
      · rw [ht] at h; cases h
      · rw [hx.2.1] at h; exact absurd (Option.some.inj h) (by decide)
    | param _ _ hr => rw [(register_eq hr).2] at hb; exact h2 hb
    | runtimeCall _ h _ _ hr => exact set (register_eq hr).2 fun e => by subst e; rw [ht] at h; cases h
  obtain ⟨t, ht'⟩ := (registerTypes_text hE h h0).2 x hlt (by rw [ht]; simp)
  exact hq.2 (by rw [ht']; rfl)

/-- An entry under one of the two names stands for the parameter. -/
theorem param_stands (hT : Tidy cfg A base) (hS : Stock base) {env : Env} (hw : WordsOK cfg A env) (hj : ReadsRows env.ext) {key : Str} {c : Cls}
    {sh : Shape Nat} (hk : key = b!"ExtrinsicSignature" ∨ key = b!"ExtrinsicSigner") (hp : ∀ i, ParamOf cfg key i → Covered cfg A i sh) (hn : sh ≠ .null)
    (h : Def cfg A base (toLower key) c) : Stands cfg A env c [] sh := by
  have hnm : ∀ {j m}, nameSiType cfg (cfg.types j) (some j) = .ok m → toLower m ≠ toLower key := by
    intro j m hm e
    by_cases hne : m = []
    · subst hne; rcases hk with rfl | rfl <;> exact absurd e (by decide)
    · have := hT.apart _ _ hm hne
      rcases hk with rfl | rfl
      · exact this.signature (e.trans (by decide))
      · exact this.signer (e.trans (by decide))
  have hal : ∀ {key' s}, Alias cfg A key' s → toLower key' = toLower key → View cfg A s sh := by
    intro key' s ha e
    cases ha with
    | newtype _ _ h _ => exact absurd e (hnm h)
    | primitive _ =>
      exfalso
      rw [toLower_append] at e
      rcases hk with rfl | rfl <;> exact absurd (List.cons.inj e).1 (by decide)
    | signature h9 ht =>
      rcases hk with rfl | rfl
      · exact view (hp _ h9) hT.names ht hn
      · exact absurd e (by decide)
    | signer h9 ht =>
      rcases hk with rfl | rfl
      · exact absurd e (by decide)
      · exact view (hp _ h9) hT.names ht hn
    | runtimeCall _ _ h => exact absurd e (hnm h)
  have hkey : ∀ {k t}, View cfg A t sh → (k = toLower (convertType t) ∨ k = toLower t) → k = toLower t ∨ k = b!"bytes" ∧ sh = .bytes .bytes := by
    intro k t hv hk
    rcases hk with hk | hk
    · rcases view_convert hT.names hv with ⟨rfl | rfl, hsh⟩ | e
      · exact .inr ⟨hk.trans (by kernel_rfl), hsh⟩
      · exact .inr ⟨hk.trans (by kernel_rfl), hsh⟩
      · rw [e] at hk; exact .inl hk
    · exact .inl hk
  have hb := hS.entry (b!"bytes", .bytes) (by simp [stockClasses])
  generalize hq : toLower key = k at h
  cases h with
  | struct _ _ _ h _ => exact absurd hq.symm (hnm h)
  | enum _ _ h _ _ => exact absurd hq.symm (hnm h)
  | tuple _ _ _ =>
    exfalso
    rw [toLower_append] at hq
    rcases hk with rfl | rfl <;> exact absurd (List.cons.inj hq).1 (by decide)
  | aliasBase h1 h2 h3 =>
    have hs := hal h1 hq.symm
    rcases hkey hs h2 with rfl | ⟨rfl, rfl⟩
    · exact base_stands hT hS hs h3
    · rw [h3] at hb
      cases hb
      exact bytes_stands
  | aliasDef h1 h2 h3 =>
    have hs := hal h1 hq.symm
    rcases hkey hs h2 with rfl | ⟨rfl, rfl⟩
    · exact def_stands hT hS hj h3 _ _ (fun _ => hw) hs rfl
    · exfalso
      rcases def_fresh hT h3 with h | h | h | h | h
      · cases h
      · rw [hb] at h; cases h
      · exact absurd h (by decide)
      · cases h
      · cases h
  | aliasForm h1 h2 h3 =>
    have hs := hal h1 hq.symm
    rcases view_convert hT.names hs with ⟨rfl | rfl, _⟩ | e'
    · rw [show toLower (convertType b!"Vec<U8>") = b!"bytes" by kernel_rfl, hb] at h2
      cases h2
    · rw [show toLower (convertType b!"Vec<u8>") = b!"bytes" by kernel_rfl, hb] at h2
      cases h2
    · rw [e'] at h2 h3
      refine form_stands hT hS (fun _ => hw) hs h2 h3 ⟨?_, ?_⟩ <;>
      · rintro rfl
        exact absurd e' (by decide +kernel)

end

theorem Like.mono {α : Type} {R R' : α → Str → Prop} (hR : ∀ a t, R a t → R' a t) {sh : Shape α} {sh' : Shape Str} (h : Like R sh sh') :
    Like R' sh sh' := by
  have hf : ∀ {fs : List (Str × α)} {gs}, LikeFields R fs gs → LikeFields R' fs gs := fun h => List.Forall₂.imp (fun _ _ h => ⟨h.1, hR _ _ h.2⟩) h
  cases sh with
  | seq k => obtain ⟨t, h1, h2⟩ := h; exact ⟨t, h1, hR _ _ h2⟩
  | option k => obtain ⟨t, h1, h2⟩ := h; exact ⟨t, h1, hR _ _ h2⟩
  | array n k => obtain ⟨t, h1, h2⟩ := h; exact ⟨t, h1, hR _ _ h2⟩
  | result k l => obtain ⟨t, u, h1, h2, h3, h4⟩ := h; exact ⟨t, u, h1, hR _ _ h2, hR _ _ h3, h4⟩
  | struct fs => obtain ⟨gs, h1, h2⟩ := h; exact ⟨gs, h1, hf h2⟩
  | enum vs =>
    obtain ⟨ws, h1, h2⟩ := h
    refine ⟨ws, h1, h2.imp fun v w h => ⟨h.1, h.2.1, ?_⟩⟩
    have h3 := h.2.2
    revert h3
    cases v.2.2 with
    | unit => exact fun h => h
    | one k => rintro ⟨t, h1, h2⟩; exact ⟨t, h1, hR _ _ h2⟩
    | fields fs => rintro ⟨gs, h1, h2⟩; exact ⟨gs, h1, hf h2⟩
  | _ => exact h

section
variable {cfg : SiCfg} {A : Nat → Prop} {env0 : Env} {st : SiState} (hT : Tidy cfg A env0.reg) (hS : Stock env0.reg)
  (hL : Loaded cfg A env0 st) (hsp : env0.special = fun _ => []) (hj : ReadsRows env0.ext) {ctx : Ctx} {ectx : ECtx}
  (hm : Untouched cfg ctx.module)
include hT hS hL hsp hj hm

/-- The bytes of a value of the parameter are the bytes of the value under the fixed name. -/
theorem scale_param {plain : Nat → Prop} {key : Str} {p : Nat} (hk : key = b!"ExtrinsicSignature" ∨ key = b!"ExtrinsicSigner")
    (hp : ∀ i, ParamOf cfg key i → i = p) (ha : ∀ sh, Covered cfg A p sh → Aliased cfg A sh) {c : Cls}
    (hc : st.reg.env.reg (toLower key) = some c) (hd : Def cfg A env0.reg (toLower key) c) {v r : Val} {b : Str}
    (h : Scale (Covered cfg A) (SupportedBy plain) p v r b) : Scale (HasShape st.reg.env ctx ectx) Supported key v r b := by
  refine scale_like (R := fun i t => Spelled cfg A i t ∨ i = p ∧ t = key) ?_ (empty_shape hT hS hL hsp) h key (.inr ⟨rfl, rfl⟩)
  rintro i t sh hcov (h | ⟨rfl, rfl⟩)
  · obtain ⟨sh', h1, h2⟩ := spelled_shape hT hS hL hsp hj hm hcov h
    exact ⟨sh', h1, h2.mono fun _ _ => .inl⟩
  · obtain ⟨sh', h1, h2⟩ := param_stands hT hS (words_ok hT hS hL hsp hj) (reads_rows hL hj) hk (fun i hi => by rw [hp i hi]; exact hcov)
      (ha _ hcov).ne_null hd
    have hl : LooksUp st.reg.env t c [] := by
      rcases hk with rfl | rfl
      · exact looksUp_entry hL hsp (u := b!"ExtrinsicSignature") (by kernel_rfl) (by simp) hc
      · exact looksUp_entry hL hsp (u := b!"ExtrinsicSigner") (by kernel_rfl) (by simp) hc
    have hno : ∀ m, NotOverridden m (convertType t) := by
      rcases hk with rfl | rfl
      · exact (by decide +kernel : NeverOverridden (convertType b!"ExtrinsicSignature")).apply
      · exact (by decide +kernel : NeverOverridden (convertType b!"ExtrinsicSigner")).apply
    refine ⟨sh', .inl ⟨c, [], [], hl _ _ (hno _), ⟨hl _ _ (notOverridden_nil _), ?_⟩, h1⟩, h2.mono fun _ _ => .inl⟩
    rcases hk with rfl | rfl <;> decide

end

end ScaleGo
