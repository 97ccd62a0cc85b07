import Verif.Model.MetaEarly
import Verif.Props.C82
import Verif.Spec.EarlyMeta

/-! # C114: metadata of versions 6 to 8 gives the modules and tables it describes -/

namespace ScaleGo
open _root_.Spec (WText WAll WList WOpt FText FList OKind OEntry OConst OCall OEvent OModule EncOKind EncOEntry EncOConst EncOArg EncOCall
  EncOEvent EncOError EncOStorage EncOModule EncOld FOKind FOEntry FOConst FOCall FOEvent FOError FOModule FOld hasherNames hasherNamesOf
  modifierNames EncModule6 EncModule7 EncEarlyModule EncEarly)

/-- Metadata of versions 6 to 8 gives what it describes. -/
def C114Claim : Prop :=
  ∀ (v : Nat) (reg : RegState) (spec : Int) (md : Option MD) (l : List OModule) (b : Str),
    6 ≤ v → v ≤ 8 → ReadsOld reg.env ⟨[], spec, md⟩ → FList (FOModule v) l → EncEarly v l b → b.length < 2 ^ 63 →
    ∃ out, Gives (fun n => processEarly v n reg ⟨[], spec, md⟩) b out ∧ DescribedOld v (hasherNamesOf v) l none out

/-! ## Names that are not in the registry -/

/-- With enough budget the step `f` panics in front of `b`. -/
def Fails {α : Type} (f : Nat → Dec α) (b : Str) : Prop := ∃ N, ∀ n, N ≤ n → PanicAt (f n) b

theorem fails_first {α β : Type} {f : Nat → Dec α} {k : Nat → α × St → Res (β × St)} {b : Str} (h : Fails f b) :
    Fails (fun n st => f n st >>= k n) b := by
  obtain ⟨N, h⟩ := h
  exact ⟨N, fun n hn => PanicAt.bind_left (g := fun a st => k n (a, st)) (h n hn)⟩

theorem fails_step {α β : Type} {f : Nat → Dec α} {k : Nat → α × St → Res (β × St)} {b1 b2 : Str} {a : α}
    (h1 : Settles f b1 a) (h2 : Fails (fun n st => k n (a, st)) b2) : Fails (fun n st => f n st >>= k n) (b1 ++ b2) := by
  obtain ⟨N, h1⟩ := h1
  obtain ⟨M, h2⟩ := h2
  exact ⟨max N M, fun n hn => PanicAt.bind (g := fun a st => k n (a, st)) (h1 n (by omega)) (h2 n (by omega))⟩

theorem fails_append {α : Type} {f : Nat → Dec α} {b : Str} (h : Fails f b) (c : Str) : Fails f (b ++ c) := by
  obtain ⟨N, h⟩ := h
  refine ⟨N, fun n hn pre suf cs hl => ?_⟩
  have := h n hn pre (c ++ suf) cs (by simp only [List.length_append] at hl ⊢; omega)
  rwa [List.append_assoc]

/-- The name `el` is unknown, `ty` is the list of it. -/
def ForeignTexts (env : Env) (ctx : Ctx) (ty el : Str) : Prop :=
  el ≠ [] ∧ Resolves env ctx.module ctx.spec ty (.vec []) el ∧ getCodecClass env ctx.module ctx.spec el = .ok none

section
variable {env : Env} {ctx : Ctx} {ty el : Str}

theorem foreign_empty {α : Type} {P : α → Str → Prop} (hL : LenOK env ctx) (h : ForeignTexts env ctx ty el) {b : Str} (hw : WList P [] b) :
    Settles (fun n => readForeign (pau env n) ctx ty) b () := by
  obtain ⟨c, d, hc, hd, rfl⟩ := hw
  obtain rfl : d = [] := hd
  rw [List.append_nil]
  have := settles_decodes (len_decodes hL (by simp) hc)
  refine settles_last (a := Val.nilSlice) (settles_decodes (decodes_of_decAt h.2.1 ?_)) (settles_pure ())
  obtain ⟨N, h1⟩ := this
  exact ⟨N, fun n hn => DecAt.last (h1 n hn) fun st => rfl⟩

theorem foreign_fails {α : Type} {P : α → Str → Prop} (hL : LenOK env ctx) (h : ForeignTexts env ctx ty el) {l : List α} {b : Str}
    (hw : WList P l b) (hl : l ≠ []) (hs : l.length ≤ 524288) : Fails (fun n => readForeign (pau env n) ctx ty) b := by
  obtain ⟨c, d, hc, hd, rfl⟩ := hw
  refine fails_append (fails_first ?_) d
  obtain ⟨N, h1⟩ := len_decodes hL (by omega) hc
  refine ⟨N + 2, fun n hn => ?_⟩
  obtain ⟨m, rfl⟩ : ∃ m, n = m + 1 := ⟨n - 1, by omega⟩
  obtain ⟨k, rfl⟩ : ∃ k, m = k + 1 := ⟨m - 1, by omega⟩
  intro pre suf cs hlen
  show pau env (k + 1 + 1) ctx ty _ = _
  rw [pau_resolves _ _ h.2.1]
  show processVec (pau env (k + 1)) ctx (if ([] : Str) = [] then el else []) _ = _
  rw [if_pos rfl]
  unfold processVec
  rw [h1 (k + 1) (by omega) pre suf cs hlen]
  simp only [Res.ok_bind, asInt]
  rw [if_neg (by omega)]
  obtain ⟨j, hj⟩ : ∃ j, ((l.length : Int)).toNat = j + 1 := by
    cases l with
    | nil => exact absurd rfl hl
    | cons a l => exact ⟨l.length, by simp⟩
  rw [hj]
  simp only [procN, pau, h.2.2]
  rfl

/-- The names of the parts of V6 and V7 metadata are unknown. -/
structure Unlisted (env : Env) (ctx : Ctx) : Prop where
  module6 : ForeignTexts env ctx b!"Vec<MetadataV6Module>" b!"MetadataV6Module"
  storage6 : ForeignTexts env ctx b!"Vec<MetadataV6ModuleStorage>" b!"MetadataV6ModuleStorage"
  constants6 : ForeignTexts env ctx b!"Vec<MetadataV6ModuleConstants>" b!"MetadataV6ModuleConstants"
  module7 : ForeignTexts env ctx b!"Vec<MetadataV7Module>" b!"MetadataV7Module"

/-- They are not in the tables of the library. -/
theorem loaded_unlisted (ext : Ext) (spec : Int) (md : Option MD) : Unlisted (loadedEnv ext) ⟨[], spec, md⟩ := by
  constructor
  all_goals
    refine ⟨by decide, ?_, ?_⟩
    · unfold Resolves loadedEnv; rw [loadedReg_fast]; kernel_rfl
    · unfold loadedEnv; rw [loadedReg_fast]; kernel_rfl

/-! ## Version 8 -/

/-- Metadata of version 8 is read as that of version 9: everything is there, the hashers have the names of version 11 and later. -/
theorem C114_version8 (reg : RegState) (ctx : Ctx) (l : List OModule) (b : Str) (h : ReadsOld reg.env ctx)
    (hf : FList (FOModule 8) l) (hw : EncEarly 8 l b) :
    ∃ out, Settles (fun n => processEarly 8 n reg ctx) b out ∧ DescribedOld 8 hasherNames l none out ∧ out.reg = reg := by
  obtain ⟨out, read, rest, e, hr, h1, h2, h3⟩ := C82_exact 8 reg ctx l 0 [] b h ⟨hf, by decide, ⟨by simp, by simp⟩⟩
    (fun h => absurd h (by decide)) ⟨b, [0], hw, ⟨[0], [], .inl ⟨by simp, by simp; decide⟩, rfl, rfl⟩, by simp⟩
  obtain rfl := hr (by decide)
  obtain rfl : b = read := by simpa using e
  exact ⟨out, h1, h2, h3⟩

theorem early_kind {k : OKind} (hf : FOKind 8 k) (hh : ∀ h ∈ kindHashers k, h < 2) : oldKind hasherNames k = oldKind (hasherNamesOf 8) k := by
  have : FOKind 9 k := by
    cases k with
    | nmap => exact absurd hf.1 (by decide)
    | _ => exact hf
  exact kind_name (v := 9) (by decide) this fun _ => hh

/-! ## Versions 6 and 7 -/

/-- The decoders of versions 6 and 7 panic on all metadata with a module. -/
theorem C114_refused (v : Nat) (reg : RegState) (ctx : Ctx) (l : List OModule) (b : Str) (hv : v = 6 ∨ v = 7) (hL : LenOK reg.env ctx)
    (h : Unlisted reg.env ctx) (hw : EncEarly v l b) (hl : l ≠ []) (hs : l.length ≤ 524288) :
    Fails (fun n => processEarly v n reg ctx) b := by
  rcases hv with rfl | rfl
  · exact fails_first (foreign_fails hL h.module6 hw hl hs)
  · exact fails_first (foreign_fails hL h.module7 hw hl hs)

/-- They read metadata without modules. -/
theorem C114_empty (v : Nat) (reg : RegState) (ctx : Ctx) (b : Str) (hv : v = 6 ∨ v = 7) (hL : LenOK reg.env ctx)
    (h : Unlisted reg.env ctx) (hw : EncEarly v [] b) :
    Settles (fun n => processEarly v n reg ctx) b ⟨[], fun _ => none, fun _ => none, none, reg⟩ := by
  rcases hv with rfl | rfl
  · exact settles_last (foreign_empty hL h.module6 hw) (settles_pure _)
  · exact settles_last (foreign_empty hL h.module7 hw) (settles_pure _)

/-- A module of version 7 on its own is read in full; the hashers have the names of version 11 and later.  A list of calls or events
that is there but empty is taken as missing. -/
theorem C114_module7 (x : OModule) (b : Str) (h : ReadsOld env ctx) (hw : EncModule7 x b) (hf : FOModule 7 x) :
    ∃ m, Settles (fun n => readModule7 (pau env n) ctx) b m ∧ DescribedModule 7 hasherNames x m ∧
      (m.calls.isSome ↔ x.calls.getD [] ≠ []) ∧ (m.events.isSome ↔ x.event.getD [] ≠ []) := by
  obtain ⟨he, b1, b2, b3, b4, b5, h1, h2, h3, h4, h5, rfl⟩ := hw
  obtain ⟨f1, f2, f3, f4, f5, f6, f7⟩ := hf
  refine ⟨⟨keptText x.name, (x.storage.map fun s => keptText s.1).getD [], (x.storage.map fun s => s.2.map (oldEntry hasherNames)).getD [],
    (x.calls.map fun l => l.map oldCall).bind appended, (x.event.map fun l => l.map oldEvent).bind appended, x.constants.map oldConst, [], 0⟩,
    ?_, ⟨rfl, rfl, rfl, ?_, ?_, rfl, by rw [he]; rfl, fun h => absurd h (by decide)⟩, ?_, ?_⟩
  · refine settles_step (settles_str (pallet_text h.toReadsPallets h1 f1)) ?_
    refine settles_step (settles_opt h.toReadsPallets (settles_oldStorage h (v := 7)) h2 f2) ?_
    refine settles_step (settles_opt h.toReadsPallets (fun _ _ hw hf => settles_vec h.len (settles_oldCall h) hw hf) h3 f3) ?_
    refine settles_step (settles_opt h.toReadsPallets (fun _ _ hw hf => settles_vec h.len (settles_oldEvent h) hw hf) h4 f4) ?_
    refine settles_last (settles_vec h.len (settles_oldConst h) h5 f5) ?_
    have e1 : ((x.storage.map fun s => (keptText s.1, s.2.map (oldEntry hasherNames))).getD ([], [])).1 =
      (x.storage.map fun s => keptText s.1).getD [] := by cases x.storage <;> rfl
    have e2 : ((x.storage.map fun s => (keptText s.1, s.2.map (oldEntry hasherNames))).getD ([], [])).2 =
      (x.storage.map fun s => s.2.map (oldEntry hasherNames)).getD [] := by cases x.storage <;> rfl
    rw [← e1, ← e2]
    exact settles_pure _
  · rw [appended_getD]
    cases x.calls <;> rfl
  · rw [appended_getD]
    cases x.event <;> rfl
  · cases x.calls with
    | none => simp
    | some l => cases l <;> simp [appended]
  · cases x.event with
    | none => simp
    | some l => cases l <;> simp [appended]

/-- A storage entry of version 6 on its own is read in full except for its documentation, of which the last line remains. -/
theorem C114_entry6 (x : OEntry) (b : Str) (h : ReadsOld env ctx) (hw : EncOEntry x b) (hf : FOEntry 6 x) :
    Settles (fun n => readEntry6 (pau env n) ctx) b
      { oldEntry hasherNames x with docs := (x.docs.drop (x.docs.length - 1)).map keptText } := by
  refine settles_last (settles_oldEntry h (v := 6) x b hw hf) ?_
  have : (oldEntry hasherNames x).docs.getLast?.toList = (x.docs.drop (x.docs.length - 1)).map keptText := by
    show (x.docs.map keptText).getLast?.toList = _
    generalize x.docs = l
    rcases List.eq_nil_or_concat l with rfl | ⟨l, a, rfl⟩
    · rfl
    · simp
  rw [← this]
  exact settles_pure _

/-- A module of version 6 on its own is read if it has neither storage entries nor constants. -/
theorem C114_module6 (p : Str) (x : OModule) (b : Str) (h : ReadsOld env ctx) (hu : Unlisted env ctx) (hp : FText p) (hw : EncModule6 p x b)
    (hf : FOModule 6 x) (hs : ∀ s ∈ x.storage, s.2 = []) (hc : x.constants = []) :
    Settles (fun n => readModule6 (pau env n) ctx) b ⟨keptText x.name, keptText p, [], (x.calls.map fun l => l.map oldCall).bind appended,
      (x.event.map fun l => l.map oldEvent).bind appended, [], [], 0⟩ := by
  obtain ⟨hp', he, b1, b2, b3, b4, b5, b6, h1, h2, h3, h4, h5, h6, rfl⟩ := hw
  obtain ⟨f1, f2, f3, f4, f5, f6, f7⟩ := hf
  rw [hc] at h6
  refine settles_step (settles_str (pallet_text h.toReadsPallets h1 f1)) ?_
  refine settles_step (settles_str (pallet_text h.toReadsPallets h2 hp)) ?_
  refine settles_step (settles_opt h.toReadsPallets (F := fun l => l = []) (k := fun _ => ())
    (fun _ _ hw hf => by subst hf; exact foreign_empty h.len hu.storage6 hw) h3 ?_) ?_
  · intro l hl
    obtain ⟨s, hs', rfl⟩ := Option.map_eq_some_iff.1 hl
    exact hs s hs'
  refine settles_step (settles_opt h.toReadsPallets (fun _ _ hw hf => settles_vec h.len (settles_oldCall h) hw hf) h4 f3) ?_
  refine settles_step (settles_opt h.toReadsPallets (fun _ _ hw hf => settles_vec h.len (settles_oldEvent h) hw hf) h5 f4) ?_
  exact settles_last (foreign_empty h.len hu.constants6 h6) (settles_pure _)

/-- With a storage entry or a constant it panics. -/
theorem C114_module6_refused (p : Str) (x : OModule) (b : Str) (h : ReadsOld env ctx) (hu : Unlisted env ctx) (hp : FText p)
    (hw : EncModule6 p x b) (hf : FOModule 6 x) (hs : (∃ s ∈ x.storage, s.2 ≠ []) ∨ x.constants ≠ []) :
    Fails (fun n => readModule6 (pau env n) ctx) b := by
  obtain ⟨hp', he, b1, b2, b3, b4, b5, b6, h1, h2, h3, h4, h5, h6, rfl⟩ := hw
  obtain ⟨f1, f2, f3, f4, f5, f6, f7⟩ := hf
  refine fails_step (settles_str (pallet_text h.toReadsPallets h1 f1)) ?_
  refine fails_step (settles_str (pallet_text h.toReadsPallets h2 hp)) ?_
  by_cases hs1 : ∃ s ∈ x.storage, s.2 ≠ []
  · obtain ⟨s, hs1, hs2⟩ := hs1
    rw [show x.storage = some s from hs1] at h3
    obtain ⟨c, hc, rfl⟩ := h3
    refine fails_append (fails_first ?_) _
    refine fails_step (b1 := [1]) (settles_flag h true) (fails_first (foreign_fails h.len hu.storage6 hc hs2 ?_))
    exact (f2 s hs1).2.1
  · have hc := hs.resolve_left hs1
    refine fails_step (settles_opt h.toReadsPallets (F := fun l => l = []) (k := fun _ => ())
      (fun _ _ hw hf => by subst hf; exact foreign_empty h.len hu.storage6 hw) h3 ?_) ?_
    · intro l hl
      obtain ⟨s, hs', rfl⟩ := Option.map_eq_some_iff.1 hl
      exact Classical.not_not.1 fun hn => hs1 ⟨s, hs', hn⟩
    refine fails_step (settles_opt h.toReadsPallets (fun _ _ hw hf => settles_vec h.len (settles_oldCall h) hw hf) h4 f3) ?_
    refine fails_step (settles_opt h.toReadsPallets (fun _ _ hw hf => settles_vec h.len (settles_oldEvent h) hw hf) h5 f4) ?_
    exact fails_first (foreign_fails h.len hu.constants6 h6 hc f5.1)

end

/-! ## The claim -/

theorem described_none (v : Nat) (names : List Str) (reg : RegState) (hv : v < 12) :
    DescribedOld v names [] none ⟨[], fun _ => none, fun _ => none, none, reg⟩ := by
  refine ⟨.nil, fun a b e => ⟨fun h => absurd h (by simp), ?_⟩, fun a b e => ⟨fun h => absurd h (by simp), ?_⟩, rfl⟩
  all_goals
    rintro ⟨x, c, hm, -⟩
    simp [CallModule, EventModule, hv] at hm

/-- Metadata of version 8 in which only the first two hashers occur gives what it describes, and so does metadata of versions 6 and 7
without modules.  Missing are the modules of versions 6 and 7, on which the decoders panic (`C114_refused`), and the hashers whose
names have changed (`C114_version8`). -/
theorem C114_partial (v : Nat) (reg : RegState) (ctx : Ctx) (l : List OModule) (b : Str) (h6 : 6 ≤ v) (h8 : v ≤ 8)
    (h : ReadsOld reg.env ctx) (hu : Unlisted reg.env ctx) (hf : FList (FOModule v) l) (hw : EncEarly v l b) (hl : b.length < 2 ^ 63)
    (hv : v < 8 → l = []) (hh : ∀ x ∈ l, ∀ s ∈ x.storage, ∀ e ∈ s.2, ∀ i ∈ kindHashers e.kind, i < 2) :
    ∃ out, Gives (fun n => processEarly v n reg ctx) b out ∧ DescribedOld v (hasherNamesOf v) l none out := by
  by_cases e8 : v = 8
  · subst e8
    obtain ⟨out, h1, h2, -⟩ := C114_version8 reg ctx l b h hf hw
    have h1 := h1.gives (rest := []) (by simpa using hl)
    rw [List.append_nil] at h1
    refine ⟨out, h1, ?_, h2.calls, h2.events, h2.extrinsic⟩
    have : ∀ x ∈ l, ∀ m, DescribedModule 8 hasherNames x m → DescribedModule 8 (hasherNamesOf 8) x m := by
      intro x hx m hm
      refine { hm with storage := hm.storage.trans ?_ }
      cases hs : x.storage with
      | none => rfl
      | some s =>
        show s.2.map _ = s.2.map _
        refine List.map_congr_left fun e he => ?_
        have fe := ((hf.2 x hx).2.1 s (by simp [hs])).2.2 e he
        unfold oldEntry
        rw [early_kind fe.2.2.1 fun i hi => hh x hx s (by simp [hs]) e he i hi]
    have m := h2.modules
    generalize out.modules = ms at m
    clear h1 h2 hf hw hh hl hv
    induction m with
    | nil => exact .nil
    | cons a _ ih => exact .cons (this _ (by simp) _ a) (ih fun x hx => this x (List.mem_cons_of_mem _ hx))
  · obtain rfl := hv (by omega)
    have := (C114_empty v reg ctx b (by omega) h.len hu hw).gives (rest := []) (by simpa using hl)
    rw [List.append_nil] at this
    exact ⟨_, this, described_none v _ reg (by omega)⟩

/-- A module with nothing but a name. -/
def bareModule : OModule := ⟨b!"M", none, none, none, [], [], 0⟩

theorem bare_fits (v : Nat) : FList (FOModule v) [bareModule] := by
  have nil : ∀ {α : Type} (P : α → Prop), FList P [] := fun P => ⟨by simp, by simp⟩
  refine ⟨by simp, fun x hx => ?_⟩
  obtain rfl := List.mem_singleton.1 hx
  exact ⟨by show 1 < _; decide, by simp [bareModule], by simp [bareModule], by simp [bareModule], nil _, nil _, by decide⟩

theorem bare_written : EncEarly 7 [bareModule] [4, 4, 77, 0, 0, 0, 0] := by
  have one : Spec.IsCompact 1 [4] := .inl ⟨by decide, by decide⟩
  have zero : Spec.IsCompact 0 [0] := .inl ⟨by decide, by decide⟩
  have mod : EncModule7 bareModule [4, 77, 0, 0, 0, 0] :=
    ⟨rfl, [4, 77], [0], [0], [0], [0], ⟨[4], one, rfl⟩, rfl, rfl, rfl, ⟨[0], [], zero, rfl, rfl⟩, rfl⟩
  exact ⟨[4], _, one, ⟨_, [], mod, rfl, rfl⟩, rfl⟩

/-- The decoder of version 7 panics on the module above. -/
theorem C114_claim_false : ¬ C114Claim := by
  intro h
  have hr := loaded_readsOld dummyExt 0 none
  obtain ⟨out, ⟨N, h1⟩, -⟩ := h 7 ⟨loadedEnv dummyExt, fun _ => none⟩ 0 none [bareModule] _ (by decide) (by decide) hr (bare_fits 7) bare_written (by decide)
  obtain ⟨M, h2⟩ := C114_refused 7 ⟨loadedEnv dummyExt, fun _ => none⟩ ⟨[], 0, none⟩ [bareModule] _ (.inr rfl) hr.len
    (loaded_unlisted dummyExt 0 none) bare_written (by simp) (by simp)
  obtain ⟨st, h1⟩ := h1 (N + M) (by omega)
  have h2 := h2 (N + M) (by omega) [] [] [] (by decide)
  rw [List.nil_append, List.append_nil] at h2
  exact absurd (h1.symm.trans h2) (by simp)

/-- The hypotheses are met: a module of version 8 with a map, a call with an argument, an event, a constant and an error. -/
def modules8 : List OModule :=
  [⟨b!"Balances", some (b!"B", [⟨b!"Free", 1, .map 1 b!"AccountId" b!"Balance" true, [0], [b!"a", b!"b"]⟩]),
      some [⟨b!"transfer", [(b!"dest", b!"Address"), (b!"n", b!"Compact<Balance>")], []⟩], some [⟨b!"Sent", [b!"AccountId"], []⟩],
      [⟨b!"Fee", b!"u32", [1, 0, 0, 0], []⟩], [(b!"Low", [b!"doc"])], 0⟩, bareModule]

theorem modules8_fit : FList (FOModule 8) modules8 := by
  have t : ∀ s : Str, s.length ≤ 20 → FText s := fun s h => Nat.lt_of_le_of_lt h (by decide)
  have nil : ∀ {α : Type} (P : α → Prop), FList P [] := fun P => ⟨by simp, by simp⟩
  have one : ∀ {α : Type} (P : α → Prop) (a : α), P a → FList P [a] := fun P a h => ⟨by simp, by simpa using h⟩
  have two : ∀ {α : Type} (P : α → Prop) (a b : α), P a → P b → FList P [a, b] := fun P a b h k => ⟨by simp, by simp [h, k]⟩
  refine two _ _ _ ?_ ((bare_fits 8).2 _ (by simp))
  refine ⟨t _ (by decide), ?_, ?_, ?_, one _ _ ?_, one _ _ ⟨t _ (by decide), one _ _ (t _ (by decide))⟩, by decide⟩
  · rintro s ⟨⟩
    exact ⟨t _ (by decide), one _ _ ⟨t _ (by decide), by decide, ⟨by decide, t _ (by decide), t _ (by decide)⟩, t _ (by decide),
      two _ _ _ (t _ (by decide)) (t _ (by decide))⟩⟩
  · rintro s ⟨⟩
    exact one _ _ ⟨t _ (by decide), two _ _ _ ⟨t _ (by decide), t _ (by decide)⟩ ⟨t _ (by decide), t _ (by decide)⟩, nil _⟩
  · rintro s ⟨⟩
    exact one _ _ ⟨t _ (by decide), one _ _ (t _ (by decide)), nil _⟩
  · exact ⟨t _ (by decide), t _ (by decide), t _ (by decide), nil _⟩

example : ∃ b out, EncEarly 8 modules8 b ∧
    Settles (fun n => processEarly 8 n ⟨loadedEnv dummyExt, fun _ => none⟩ ⟨[], 0, none⟩) b out ∧ DescribedOld 8 hasherNames modules8 none out := by
  obtain ⟨b, b1, b2, h1, h2, rfl⟩ := C82_written 8 modules8 0 [] ⟨modules8_fit, by decide, ⟨by simp, by simp⟩⟩
  obtain ⟨out, h3, h4, -⟩ := C114_version8 ⟨loadedEnv dummyExt, fun _ => none⟩ ⟨[], 0, none⟩ modules8 b1 (loaded_readsOld dummyExt 0 none) modules8_fit h1
  exact ⟨b1, out, h1, h3, h4⟩

/-- An entry of version 6 with two lines of documentation: the second remains. -/
example : ∃ b, Settles (fun n => readEntry6 (pau (loadedEnv dummyExt) n) ⟨[], 0, none⟩) b
    ⟨b!"E", b!"Optional", .plain b!"u32", b!"0x00", [b!"b"]⟩ := by
  have one : Spec.IsCompact 1 [4] := .inl ⟨by decide, by decide⟩
  have t : ∀ s : Str, s.length ≤ 20 → FText s := fun s h => Nat.lt_of_le_of_lt h (by decide)
  have := C114_entry6 (env := loadedEnv dummyExt) (ctx := ⟨[], 0, none⟩) ⟨b!"E", 0, .plain b!"u32", [0], [b!"a", b!"b"]⟩
    ([4, 69] ++ ([0] ++ ([0, 12, 117, 51, 50] ++ ([4, 0] ++ [8, 4, 97, 4, 98])))) (loaded_readsOld dummyExt 0 none)
    ⟨[4, 69], _, [4, 0], _, ⟨[4], one, rfl⟩, ⟨[12, 117, 51, 50], ⟨[12], .inl ⟨by decide, by decide⟩, rfl⟩, rfl⟩, ⟨[4], one, rfl⟩,
      ⟨[8], [4, 97, 4, 98], .inl ⟨by decide, by decide⟩, ⟨[4, 97], [4, 98], ⟨[4], one, rfl⟩, ⟨[4, 98], [], ⟨[4], one, rfl⟩, rfl, rfl⟩, rfl⟩, rfl⟩,
      rfl⟩
    ⟨t _ (by decide), by decide, t _ (by decide), t _ (by decide), ⟨by simp, by simp [t]⟩⟩
  exact ⟨_, this⟩

end ScaleGo
