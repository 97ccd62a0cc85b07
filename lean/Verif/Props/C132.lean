import Verif.Props.C126
import Verif.Props.C108
import Mathlib.Logic.Relation
import Verif.Props.C85

/-! # C132: encoding ends with the definitions of every shipped network

By C126 encoding ends on all values exactly if no text stands for options without end.  Here: the files in `network/`, loaded over the
built-in definitions, any of them in any sequence, since the tables are global and nothing is ever removed from them. -/

namespace ScaleGo

open ScaleGo.Spec (OptionsEnd OptionOf ValuePart)

/-- No entry of the name is an option. -/
def NotOption (env : Env) (k : Str) : Prop := (∀ y, env.reg k ≠ some (.option y)) ∧ ∀ lo hi y, (lo, hi, Cls.option y) ∉ env.special k

/-- If the names that a text is looked up under are no options, neither is the text. -/
theorem class_notOption {env : Env} {m x : Str} {spec : Int} (h : ∀ k ∈ Spec.namesOf m x, NotOption env k) {y s : Str} :
    getCodecClass env m spec x ≠ .ok (some (.option y, s)) := by
  intro hc
  classical
  let env' : Env := { env with
    reg := fun k => if k ∈ Spec.namesOf m x then env.reg k else none
    special := fun k => if k ∈ Spec.namesOf m x then env.special k else [] }
  have e : getCodecClass env' m spec x = getCodecClass env m spec x :=
    C85_lookup env env' m spec x fun k hk => ⟨by simp [env', hk], by simp [env', hk]⟩
  rw [← e] at hc
  obtain ⟨ho, _⟩ := class_option _ _ hc
  rcases ho with ⟨k, hk⟩ | ⟨k, lo, hi, hk⟩
  · simp only [env'] at hk
    split at hk
    · rename_i hm; exact (h k hm).1 y hk
    · cases hk
  · simp only [env'] at hk
    split at hk
    · rename_i hm; exact (h k hm).2 lo hi y hk
    · cases hk

/-- The names with options among these entries, and the texts of the options. -/
def optionEntries (l : List (Str × Cls)) : List (Str × Str) := l.filterMap fun p => match p.2 with
  | .option x => some (p.1, x)
  | _ => none

theorem mem_optionEntries {l : List (Str × Cls)} {k x : Str} (h : (k, Cls.option x) ∈ l) : (k, x) ∈ optionEntries l :=
  List.mem_filterMap.mpr ⟨_, h, rfl⟩

/-- A key registers under this name. -/
def keyFor (k n : Str) : Bool := match splitSep k b!"#" with
  | [m, _] => m == n
  | _ => k == n

/-- No text of an option is looked up under the name of an option. -/
def optionsCheck (l : List (Str × Str)) : Bool :=
  l.all fun p => p.2.isEmpty || (Spec.namesOf [] p.2).all fun n => l.all fun q => !keyFor q.1 n && q.1 != n

theorem options_of_check {l : List (Str × Str)} (h : optionsCheck l = true) (env : Env)
    (hr : ∀ k x, env.reg k = some (.option x) → (k, x) ∈ l)
    (hs : ∀ n lo hi x, (lo, hi, Cls.option x) ∈ env.special n → ∃ k, (k, x) ∈ l ∧ keyFor k n = true) : OptionsEnd env := by
  have key : ∀ k x, (k, x) ∈ l → x ≠ [] → ∀ n ∈ Spec.namesOf [] x, NotOption env n := by
    intro k x hk hx n hn
    have h1 := List.all_eq_true.mp h _ hk
    rcases Bool.or_eq_true_iff.mp h1 with h1 | h1
    · exact absurd (List.isEmpty_iff.mp h1) hx
    have h2 := List.all_eq_true.mp (List.all_eq_true.mp h1 n hn)
    refine ⟨fun y hy => ?_, fun lo hi y hy => ?_⟩
    · have := h2 _ (hr n y hy)
      simp at this
    · obtain ⟨k', hk', hf⟩ := hs n lo hi y hy
      have := h2 _ hk'
      simp [hf] at this
  refine options_end fun x hx hne spec => ⟨x, fun u hu => ?_⟩
  have hn : ∀ n ∈ Spec.namesOf [] x, NotOption env n := by
    rcases hx with ⟨k, hk⟩ | ⟨k, lo, hi, hk⟩
    · exact key k x (hr k x hk) hne
    · obtain ⟨k', hk', _⟩ := hs k lo hi x hk
      exact key k' x hk' hne
  obtain ⟨_, y, s, hres, _⟩ := hu
  exact absurd hres (class_notOption hn)

/-! ## Registration -/

/-- All entries that are options are in the list. -/
def OptionsIn (l : List (Str × Str)) (ext : Ext) (env : Env) : Prop :=
  (∀ k x, env.reg k = some (.option x) → (k, x) ∈ l) ∧
    (∀ n lo hi x, (lo, hi, Cls.option x) ∈ env.special n → ∃ k, (k, x) ∈ l ∧ keyFor k n = true) ∧
    env.ext = ext

section
variable {l : List (Str × Str)} {ext : Ext}

theorem OptionsIn.put {env : Env} (h : OptionsIn l ext env) {k : Str} {c : Cls} (hc : ∀ x, c = .option x → (k, x) ∈ l) : OptionsIn l ext (regCustomKey env k c) := by
  unfold regCustomKey
  split
  · rename_i m r e
    refine ⟨h.1, fun n lo hi x hx => ?_, h.2.2⟩
    simp only [addSpecial] at hx
    split at hx
    · rename_i hn
      subst hn
      rcases List.mem_append.mp hx with hx | hx
      · exact h.2.1 _ lo hi x hx
      · have hx := List.mem_singleton.mp hx
        exact ⟨k, hc x (by cases hx; rfl), by unfold keyFor; rw [e]; simp⟩
    · exact h.2.1 n lo hi x hx
  · refine ⟨fun n x hx => ?_, h.2⟩
    simp only [setReg] at hx
    split at hx
    · rename_i hn
      subst hn
      exact hc x (Option.some.inj hx)
    · exact h.1 n x hx

theorem OptionsIn.plain {st st' : RegState} (h : OptionsIn l ext st.env) {k : Str} {d : TypeDef} (hr : regPlain st k d = .ok st') : OptionsIn l ext st'.env := by
  unfold regPlain at hr
  split at hr
  · obtain ⟨m, _, hr⟩ := Res.bind_eq_ok.mp hr
    cases hr
    exact h.put fun _ e => by cases e
  · split at hr
    · obtain ⟨m, _, hr⟩ := Res.bind_eq_ok.mp hr
      cases hr
      exact h.put fun _ e => by cases e
    · split at hr
      · cases hr
        exact h.put fun _ e => by cases e
      · cases hr
        exact h

theorem v14Key_env {fuel : Nat} {st st' : RegState} {k k' : Str} {d : TypeDef} (h : v14Key fuel st k d = .ok (some (st', k'))) : st'.env = st.env := by
  unfold v14Key at h
  split at h
  · cases h; rfl
  · split at h
    · cases h; rfl
    · split at h
      · cases h
      · obtain ⟨b, _, h⟩ := Res.bind_eq_ok.mp h
        split at h <;> cases h
        rfl

theorem OptionsIn.single {fuel : Nat} {st st' : RegState} (h : OptionsIn l ext st.env) {k : Str} {d : TypeDef} (hr : regSingle fuel st k d = .ok st') :
    OptionsIn l ext st'.env := by
  unfold regSingle at hr
  obtain ⟨o, h1, hr⟩ := Res.bind_eq_ok.mp hr
  cases o with
  | none => cases hr; exact h
  | some p =>
    obtain ⟨st1, k1⟩ := p
    refine OptionsIn.plain ?_ hr
    rw [v14Key_env h1]
    exact h

/-- What is an option under the one name is in the list under the other. -/
def copies (l : List (Str × Str)) (a k : Str) : Bool := l.all fun p => p.1 != a || l.contains (k, p.2)

theorem copies_sound {a k x : Str} (h : copies l a k = true) (hx : (a, x) ∈ l) : (k, x) ∈ l := by
  have := List.all_eq_true.mp h _ hx
  simpa using this

/-- If the text is that of an option, the name is in the list with it. -/
def textOk (l : List (Str × Str)) (t k : Str) : Bool := match aliasClass t with
  | .ok (some (.option x)) => l.contains (k, x)
  | _ => true

theorem OptionsIn.text {st st' : RegState} (h : OptionsIn l ext st.env) {k t : Str} (hk : textOk l t k = true) (hr : regAliasText st k t = .ok st') :
    OptionsIn l ext st'.env := by
  unfold regAliasText at hr
  obtain ⟨o, h1, hr⟩ := Res.bind_eq_ok.mp hr
  cases o with
  | none => cases hr; exact h
  | some c =>
    cases hr
    refine h.put fun x e => ?_
    subst e
    unfold textOk at hk
    rw [h1] at hk
    simpa using hk

/-- The definition may make a name an option. -/
def hotDef (l : List (Str × Str)) (d : TypeDef) : Bool :=
  if d.kind = b!"string" then
    let t := convertType d.typeString
    l.any (fun p => p.1 == toLower d.typeString || p.1 == toLower t) || match aliasClass t with
      | .ok (some (.option _)) => true
      | _ => false
  else false

/-- Under this key the definition gives only options of the list. -/
def hotOk (l : List (Str × Str)) (k : Str) (d : TypeDef) : Bool :=
  copies l (toLower d.typeString) k && copies l (toLower (convertType d.typeString)) k && textOk l (convertType d.typeString) k

/-- The check of a file, where `hs` are the definitions that may make a name an option: aliases of their names are among them. -/
def fileOkWith (l : List (Str × Str)) (T hs : List (Str × TypeDef)) : Bool :=
  T.all (fun p => p.2.v14 == false && (!(hs.any fun h => h.1 == p.2.typeString || h.1 == convertType p.2.typeString) || p.2.kind != b!"string" || hotDef l p.2))
    && hs.all fun h => hs.all fun p => hotOk l (toLower h.1) p.2

/-- The check of a file. -/
def fileOk (l : List (Str × Str)) (T : List (Str × TypeDef)) : Bool := fileOkWith l T (T.filter fun p => hotDef l p.2)

section
variable {T : List (Str × TypeDef)}

theorem Reach.mem {k : Str} {d : TypeDef} (h : Reach T k d) : ∃ k', (k', d) ∈ T := by
  induction h with
  | here h => exact ⟨_, mem_of_tableGet h⟩
  | next _ _ _ ih => exact ih

theorem fileOk_alias (hok : fileOk l T = true) {k : Str} {d : TypeDef} (hd : (k, d) ∈ T) (hs : d.kind = b!"string") {a : Str} {e : TypeDef}
    (ha : (a, e) ∈ T) (he : hotDef l e = true) (h : d.typeString = a ∨ convertType d.typeString = a) : hotDef l d = true := by
  have h1 := List.all_eq_true.mp (Bool.and_eq_true_iff.mp hok).1 _ hd
  have h2 := (Bool.and_eq_true_iff.mp h1).2
  have hany : ((T.filter fun p => hotDef l p.2).any fun h => h.1 == d.typeString || h.1 == convertType d.typeString) = true := by
    refine List.any_eq_true.mpr ⟨(a, e), List.mem_filter.mpr ⟨ha, he⟩, ?_⟩
    rcases h with h | h <;> simp [h]
  simp only [hany, hs, Bool.not_true, bne_self_eq_false, Bool.false_or] at h2
  exact h2

theorem Reach.hot (hok : fileOk l T = true) {k : Str} {d : TypeDef} (h : Reach T k d) (hd : hotDef l d = true) : ∃ e, (k, e) ∈ T ∧ hotDef l e = true := by
  induction h with
  | here h => exact ⟨_, mem_of_tableGet h, hd⟩
  | next h hs _ ih =>
    obtain ⟨e, he, hh⟩ := ih hd
    exact ⟨_, mem_of_tableGet h, fileOk_alias hok (mem_of_tableGet h) hs he hh (.inl rfl)⟩

theorem fileOk_hot (hok : fileOk l T = true) {k k' : Str} {d e : TypeDef} (h : (k, e) ∈ T) (he : hotDef l e = true) (h' : (k', d) ∈ T) (hd : hotDef l d = true) :
    hotOk l (toLower k) d = true :=
  List.all_eq_true.mp (List.all_eq_true.mp (Bool.and_eq_true_iff.mp hok).2 _ (List.mem_filter.mpr ⟨h, he⟩)) _ (List.mem_filter.mpr ⟨h', hd⟩)

theorem hotDef_key {d : TypeDef} (hs : d.kind = b!"string") {a x : Str} (hx : (a, x) ∈ l) (h : a = toLower d.typeString ∨ a = toLower (convertType d.typeString)) :
    hotDef l d = true := by
  unfold hotDef
  rw [if_pos hs]
  refine Bool.or_eq_true_iff.mpr (.inl (List.any_eq_true.mpr ⟨_, hx, ?_⟩))
  rcases h with h | h <;> simp [h]

/-- What a definition reached from a key makes an option is in the list. -/
theorem Reach.ok (hok : fileOk l T = true) {k : Str} {d : TypeDef} (h : Reach T k d) (hd : hotDef l d = true) : hotOk l (toLower k) d = true := by
  obtain ⟨e, he, hh⟩ := h.hot hok hd
  obtain ⟨k', hk'⟩ := h.mem
  exact fileOk_hot hok he hh hk' hd

theorem Reach.textOk (hok : fileOk l T = true) {k : Str} {d : TypeDef} (h : Reach T k d) (hs : d.kind = b!"string") :
    ScaleGo.textOk l (convertType d.typeString) (toLower k) = true := by
  by_cases hd : hotDef l d = true
  · exact (Bool.and_eq_true_iff.mp (h.ok hok hd)).2
  · unfold hotDef at hd
    rw [if_pos hs] at hd
    unfold ScaleGo.textOk
    dsimp only at hd
    split
    · rename_i e
      rw [e] at hd
      simp at hd
    · rfl

theorem OptionsIn.entry {all : List (Str × TypeDef)} {fuel : Nat} {st st' : RegState} (h : OptionsIn l ext st.env) (hok : fileOk l T = true)
    (hpost : ∀ k d, tableGet all k = some d → Reach T k d) {k : Str} {d : TypeDef} (hkd : Reach T k d)
    (hr : regEntry fuel all st k d = .ok (some st')) : OptionsIn l ext st'.env := by
  obtain ⟨k', hk'⟩ := hkd.mem
  have hv : d.v14 = false := by
    have h1 := List.all_eq_true.mp (Bool.and_eq_true_iff.mp hok).1 _ hk'
    simpa using (Bool.and_eq_true_iff.mp h1).1
  unfold regEntry v14Key at hr
  simp only [hv, if_true, Res.ok_bind] at hr
  split at hr
  · rename_i hs
    have h2 := hkd.textOk hok hs
    obtain ⟨s1, ha, hr⟩ := Res.bind_eq_ok.mp hr
    cases hr
    unfold regAlias at ha
    dsimp only at ha
    split at ha
    · rename_i c hc
      cases ha
      refine h.put fun x e => ?_
      have hx := h.1 _ x (by rw [hc, e])
      exact copies_sound (Bool.and_eq_true_iff.mp (Bool.and_eq_true_iff.mp (hkd.ok hok (hotDef_key hs hx (.inr rfl)))).1).2 hx
    · split at ha
      · rename_i e he
        have hre := hpost _ _ he
        split at ha
        · rename_i hes
          split at ha
          · rename_i c hc
            cases ha
            refine h.put fun x ec => ?_
            have hx := h.1 _ x (by rw [hc, ec])
            have hhot := hotDef_key hes hx (.inl rfl)
            obtain ⟨e', he', hh'⟩ := hre.hot hok hhot
            have hdh := fileOk_alias hok hk' hs he' hh' (.inr rfl)
            obtain ⟨d', hd', hhd'⟩ := hkd.hot hok hdh
            obtain ⟨_, hem⟩ := hre.mem
            exact copies_sound (Bool.and_eq_true_iff.mp (Bool.and_eq_true_iff.mp (fileOk_hot hok hd' hhd' hem hhot)).1).1 hx
          · exact h.text h2 ha
        · obtain ⟨s2, hb, ha⟩ := Res.bind_eq_ok.mp ha
          exact (h.single hb).text h2 ha
      · exact h.text h2 ha
  · obtain ⟨s1, ha, hr⟩ := Res.bind_eq_ok.mp hr
    cases hr
    exact h.plain ha

theorem OptionsIn.loop {all : List (Str × TypeDef)} {fuel : Nat} (hok : fileOk l T = true) (hpost : ∀ k d, tableGet all k = some d → Reach T k d) :
    ∀ (m : List (Str × TypeDef)), (∀ p ∈ m, Reach T p.1 p.2) → ∀ {st st' : RegState}, OptionsIn l ext st.env →
      regLoop fuel all st m = .ok st' → OptionsIn l ext st'.env
  | [], _, st, st', h, hr => by rw [regLoop] at hr; cases hr; exact h
  | (k, d) :: m, hm, st, st', h, hr => by
    rw [regLoop] at hr
    obtain ⟨o, h1, hr⟩ := Res.bind_eq_ok.mp hr
    cases o with
    | none => cases hr; exact h
    | some s1 => exact OptionsIn.loop hok hpost m (fun p hp => hm p (List.mem_cons_of_mem _ hp)) (h.entry hok hpost (hm (k, d) List.mem_cons_self) h1) hr

end

theorem OptionsIn.file {N : List (Str × Network.Entry)} (hn : (N.map Prod.fst).Nodup) (hok : fileOk l (Network.table N) = true) {st s : RegState}
    (h : OptionsIn l ext st.env) (hr : RunsTo N st s) : OptionsIn l ext s.env := by
  obtain ⟨order, m, f, ho, hl, hrun⟩ := hr
  rw [load_eq] at hl
  rw [← table_keys] at ho hn
  generalize Network.table N = T at *
  obtain ⟨hinv, hpost⟩ := inheritLoop_inv order T (.start T)
  have hn2 : ((inheritLoop order T).map Prod.fst).Nodup := by rw [hinv.keys]; exact hn
  have hn3 : (m.map Prod.fst).Nodup := (hl.map _).nodup_iff.mpr hn2
  have hget : ∀ k, tableGet m k = tableGet (inheritLoop order T) k := tableGet_perm hl hn3
  have hpost' : ∀ k d, tableGet m k = some d → Reach T k d := by
    intro k d hd
    rw [hget] at hd
    refine (hpost k (.inl ?_) d hd).reach
    rw [ho.mem_iff, ← hinv.keys]
    exact List.mem_map.mpr ⟨_, mem_of_tableGet hd, rfl⟩
  exact OptionsIn.loop hok hpost' m (fun p hp => hpost' _ _ (tableGet_of_mem hn3 hp)) h hrun

end

/-! ## The shipped files -/

/-- All names that are options in the library or in a file of `network/`, with what they are options of; the check does not tell the two of karura
apart. -/
def shippedOptions : List (Str × Str) :=
  [(b!"votingtally", b!"Vec<(VoteOutcome, u128)>"), (b!"voting::tally", b!"Vec<(VoteOutcome, u128)>"), (b!"optionratio", b!"Ratio"), (b!"optionrate", b!"Rate"),
    (b!"optionratio", b!"Rate"), (b!"optionrate", b!"Ratio"),
    (b!"ethfiltertopicentry", b!"H256"), (b!"mayberandomness", b!"Randomness"), (b!"prefabwasmmodulereserved", b!"Null"),
    (b!"winningdataentry", b!"(AccountId, ParaId, BalanceOf)"), (b!"option", [])]

theorem shippedOptions_check : optionsCheck shippedOptions = true := by kernel_rfl

theorem builtin_optionsIn (ext : Ext) : OptionsIn shippedOptions ext (loadedEnv ext) := by
  have h : (optionEntries (Builtin.classes ++ baseReg)).all (fun p => shippedOptions.contains p) = true := by kernel_rfl
  refine ⟨fun k x hk => ?_, fun n lo hi x hx => (by cases hx), rfl⟩
  have := List.all_eq_true.mp h _ (mem_optionEntries (mem_of_tableGet hk))
  simpa using this

theorem shipped_fileOk : (Network.shipped.all fun f => fileOk shippedOptions (Network.table f.2)) = true := by kernel_rfl
/-- The names of a file are different if those but one are and that one is there once. -/
theorem nodup_without {N : List (Str × Network.Entry)} {k : Str} (h : ((Network.without k N).map Prod.fst).Nodup) (hk : (N.map Prod.fst).count k ≤ 1) :
    (N.map Prod.fst).Nodup := by
  refine List.nodup_iff_count_le_one.mpr fun a => ?_
  by_cases ha : a = k
  · subst ha; exact hk
  · have e : (Network.without k N).map Prod.fst = (N.map Prod.fst).filter fun x => x != k := by
      unfold Network.without
      rw [List.filter_map]
      rfl
    have h1 := List.nodup_iff_count_le_one.mp h a
    rw [e, List.count_filter (by simpa using ha)] at h1
    exact h1

theorem shipped_once : (Network.shipped.all fun f => Network.unstable.all fun u => u.1 != f.1 || decide ((f.2.map Prod.fst).count u.2 ≤ 1)) = true := by kernel_rfl

theorem shipped_nodup {f : Str × List (Str × Network.Entry)} (hf : f ∈ Network.shipped) : (f.2.map Prod.fst).Nodup := by
  rcases shipped_checked f hf with ⟨C, h⟩ | ⟨k, C, hk, h⟩
  · rw [← table_keys]
    exact (check_parts h).2.2
  · refine nodup_without (by rw [← table_keys]; exact (check_parts h).2.2) ?_
    simpa using List.all_eq_true.mp (List.all_eq_true.mp shipped_once f hf) _ hk

/-- A shipped file is loaded. -/
def LoadsShipped (st s : RegState) : Prop := ∃ f ∈ Network.shipped, RunsTo f.2 st s

theorem shipped_optionsIn (ext : Ext) (st s : RegState) (hst : st.env = loadedEnv ext) (hr : Relation.ReflTransGen LoadsShipped st s) :
    OptionsIn shippedOptions ext s.env := by
  induction hr with
  | refl => rw [hst]; exact builtin_optionsIn ext
  | tail _ h1 ih =>
    obtain ⟨f, hf, h1⟩ := h1
    exact ih.file (shipped_nodup hf) (List.all_eq_true.mp shipped_fileOk f hf) h1

/-! ## The properties -/

/-- Whatever shipped files are loaded over the built-in definitions, in any sequence, any number of times and in any orders, no text stands for
options without end. -/
theorem C132_options (ext : Ext) (st s : RegState) (hst : st.env = loadedEnv ext) (hr : Relation.ReflTransGen LoadsShipped st s) : OptionsEnd s.env := by
  have key := shipped_optionsIn ext st s hst hr
  exact options_of_check shippedOptions_check s.env key.1 key.2.1

/-- Encoding any value by any text, known or not, ends. -/
theorem C132_ends (ext : Ext) (hp : WellFounded (ValuePart ext)) (st s : RegState) (hst : st.env = loadedEnv ext)
    (hr : Relation.ReflTransGen LoadsShipped st s) (ctx : ECtx) (t : Str) (v : Val) : ∃ N r, r ≠ .diverge ∧ ∀ n, N ≤ n → enc s.env n ctx t v = r := by
  have h := shipped_optionsIn ext st s hst hr
  exact C126_partial s.env (by rw [h.2.2]; exact hp) (C132_options ext st s hst hr) ctx t v

/-! ## An example -/

/-- What becomes of a question about the tables after two runs. -/
def afterTwo {α : Type} (l l' : List (Str × TypeDef)) (q : Env → α) : Option α :=
  match regCustomTypes 1 ⟨{ loadedEnv dummyExt with reg := fastReg }, fun _ => none⟩ l with
  | .ok s => match regCustomTypes 1 s l' with
    | .ok s' => some (q s'.env)
    | _ => none
  | _ => none

theorem loads_of_afterTwo {α : Type} {f g : Str × List (Str × Network.Entry)} (hf : f ∈ Network.shipped) (hg : g ∈ Network.shipped) {q : Env → α} {a : α}
    (h : afterTwo (Network.forward f.2) (Network.forward g.2) q = some a) :
    ∃ s, Relation.ReflTransGen LoadsShipped ⟨loadedEnv dummyExt, fun _ => none⟩ s ∧ q s.env = a := by
  unfold afterTwo at h
  have e : loadedEnv dummyExt = { loadedEnv dummyExt with reg := fastReg } := by unfold loadedEnv; rw [loadedReg_fast]
  rw [← e] at h
  split at h
  · rename_i s hs
    split at h
    · rename_i s' hs'
      exact ⟨s', (Relation.ReflTransGen.single ⟨f, hf, _, _, 1, .refl _, by rw [load_eq]; exact .refl _, hs⟩).tail
        ⟨g, hg, _, _, 1, .refl _, by rw [load_eq]; exact .refl _, hs'⟩, Option.some.inj h⟩
    · cases h
  · cases h

/-- Karura, then kusama: the names of both are known. -/
example : ∃ s, Relation.ReflTransGen LoadsShipped ⟨loadedEnv dummyExt, fun _ => none⟩ s ∧
    (enc s.env 9 ⟨0, none⟩ b!"OptionRate" .nil, enc s.env 9 ⟨0, none⟩ b!"Option<Weight>" (.int 7)) =
      (.ok b!"00", .ok b!"010700000000000000") := by
  have hf : Network.shipped[22]? = some (b!"karura", Network.karura) := by kernel_rfl
  have hg : Network.shipped[27]? = some (b!"kusama", Network.kusama) := by kernel_rfl
  exact loads_of_afterTwo (List.mem_of_getElem? hf) (List.mem_of_getElem? hg) (q := fun env =>
    (enc env 9 ⟨0, none⟩ b!"OptionRate" .nil, enc env 9 ⟨0, none⟩ b!"Option<Weight>" (.int 7))) (by kernel_rfl)

example : WellFounded (ValuePart dummyExt) := parts_wf _ fun _ _ _ _ e => by cases e

end ScaleGo
