import Verif.Model.TypeStruct
import Verif.Model.Base
import Verif.Lemmas.Strings
import Verif.Lemmas.Comp
import Verif.Lemmas.KernelRfl
import Mathlib.Logic.Relation

/-! # C41: structural type comparison terminates

`Eq` expands both type names.  Structs and enums count the nesting and stop below five of them, but `Vec`/`Option` layers do
not count, and a fixed array, a map or a `Result` starts counting from 0 again, so types that contain themselves through one
of these are expanded forever. -/

namespace ScaleGo

/-- The full property: comparing any two type names in any registry finishes (with some recursion depth). -/
def C41Claim : Prop :=
  ∀ (env : Env) (a b : Str), ∃ N, ∀ n, N ≤ n → eqTypes env n a b ≠ .diverge

namespace Spec

/-- `t` names a list or optional value of `u`: a layer that does not count. -/
def WrapOf (env : Env) (t u : Str) : Prop :=
  ∃ c opt, getCodecClass env [] 0 t = .ok (some (c, opt)) ∧
    ((∃ s, c = .option s ∧ u = effSub s opt) ∨ (∃ s, c = .vec s ∧ u = if s = [] then opt else s) ∨
     (∃ s, c = .boundedVec s ∧ u = boundedSub s opt) ∨ (c = .authoritiesChange ∧ u = b!"AccountId"))

/-- `t` names a struct or enum having a member of type `u`. -/
def MemberOf (env : Env) (t u : Str) : Prop :=
  ∃ c opt, getCodecClass env [] 0 t = .ok (some (c, opt)) ∧
    ((∃ tm, c = .struct (some tm) ∧ u ∈ tm.map (·.2)) ∨ (∃ vs tm, c = .enum vs (some tm) ∧ u ∈ tm.map (·.2)) ∨
     (c = .data ∧ u ∈ dataTM.map (·.2)))

/-- `t` names a fixed array with elements `u`, or a map or `Result` with `u` among its comma-separated arguments. -/
def ResetOf (env : Env) (t u : Str) : Prop :=
  ∃ c opt, getCodecClass env [] 0 t = .ok (some (c, opt)) ∧
    ((∃ n, c = .fixedArray n u) ∨ (∃ s, c = .btreeMap s ∧ u ∈ splitSep (effSub s opt) b!",") ∨
     (∃ s, c = .result s ∧ u ∈ splitSep (effSub s opt) b!","))

/-- `u` is a part of `t` of any of the three kinds. -/
def PartOf (env : Env) (t u : Str) : Prop := WrapOf env t u ∨ MemberOf env t u ∨ ResetOf env t u

/-- `u` is below `t` through any number of counted or uncounted layers and then one array, map or `Result`. -/
def BelowReset (env : Env) (u t : Str) : Prop :=
  ∃ s, Relation.ReflTransGen (fun a b => WrapOf env a b ∨ MemberOf env a b) t s ∧ ResetOf env s u

end Spec

theorem bind_ok_ne_diverge {α β : Type} {x : Res α} {f : α → β} (h : x ≠ .diverge) :
    (x >>= fun a => Res.ok (f a)) ≠ .diverge := by
  cases x <;> simp_all

theorem membersText_ne_diverge {rec : Str → Nat → Res Str} {n : Nat} {ts : List Str}
    (h : ∀ t ∈ ts, rec t n ≠ .diverge) : membersText rec n ts ≠ .diverge := by
  induction ts with
  | nil => simp [membersText]
  | cons t ts ih =>
    unfold membersText
    refine bind_ne_diverge (h t (by simp)) (fun a => ?_)
    exact bind_ok_ne_diverge (ih (fun u hu => h u (by simp [hu])))

theorem mappingText_ne_diverge {rec : Str → Nat → Res Str} {w : Str} {rt : Nat} {ts : List Str}
    (h : rt < 5 → ∀ t ∈ ts, rec t (rt + 1) ≠ .diverge) : mappingText rec w rt ts ≠ .diverge := by
  unfold mappingText
  split
  · simp
  · rename_i hc
    refine bind_ok_ne_diverge (membersText_ne_diverge (fun t ht => h ?_ t ht))
    have : ts ≠ [] := by rintro rfl; simp at ht
    simp [limitRecursiveTime, this] at hc
    omega

theorem pairText_ne_diverge {rec : Str → Nat → Res Str} {w sub : Str}
    (h : ∀ t ∈ splitSep sub b!",", rec t 0 ≠ .diverge) : pairText rec w sub ≠ .diverge := by
  unfold pairText
  split
  · rename_i a b l he
    refine bind_ne_diverge (h a (by simp [he])) (fun x => ?_)
    exact bind_ok_ne_diverge (h b (by simp [he]))
  · rename_i a he
    exact bind_ne_diverge (h a (by simp [he])) (fun x => by simp)
  · simp

/-- `classText` only calls itself on the three kinds of parts. -/
theorem classText_ne_diverge {env : Env} {rec : Str → Nat → Res Str} {rt : Nat} {t : Str} {c : Cls} {opt : Str}
    (hc : getCodecClass env [] 0 t = .ok (some (c, opt)))
    (hw : ∀ u, Spec.WrapOf env t u → rec u rt ≠ .diverge)
    (hm : rt < 5 → ∀ u, Spec.MemberOf env t u → rec u (rt + 1) ≠ .diverge)
    (hr : ∀ u, Spec.ResetOf env t u → rec u 0 ≠ .diverge) : classText rec rt t c opt ≠ .diverge := by
  cases c with
  | option s => exact bind_ok_ne_diverge (hw _ ⟨_, _, hc, Or.inl ⟨s, rfl, rfl⟩⟩)
  | vec s => exact bind_ok_ne_diverge (hw _ ⟨_, _, hc, Or.inr (Or.inl ⟨s, rfl, rfl⟩)⟩)
  | boundedVec s => exact bind_ok_ne_diverge (hw _ ⟨_, _, hc, Or.inr (Or.inr (Or.inl ⟨s, rfl, rfl⟩))⟩)
  | authoritiesChange => exact bind_ok_ne_diverge (hw _ ⟨_, _, hc, Or.inr (Or.inr (Or.inr ⟨rfl, rfl⟩))⟩)
  | struct tm =>
    cases tm with
    | none => simp [classText]
    | some tm =>
      exact mappingText_ne_diverge (fun h5 u hu => hm h5 u ⟨_, _, hc, Or.inl ⟨tm, rfl, hu⟩⟩)
  | enum vs tm =>
    cases tm with
    | none => simp [classText]
    | some tm =>
      exact mappingText_ne_diverge (fun h5 u hu => hm h5 u ⟨_, _, hc, Or.inr (Or.inl ⟨vs, tm, rfl, hu⟩)⟩)
  | data => exact mappingText_ne_diverge (fun h5 u hu => hm h5 u ⟨_, _, hc, Or.inr (Or.inr ⟨rfl, hu⟩)⟩)
  | btreeMap s => exact pairText_ne_diverge (fun u hu => hr u ⟨_, _, hc, Or.inr (Or.inl ⟨s, rfl, hu⟩)⟩)
  | result s => exact pairText_ne_diverge (fun u hu => hr u ⟨_, _, hc, Or.inr (Or.inr ⟨s, rfl, hu⟩)⟩)
  | fixedArray n s => exact bind_ok_ne_diverge (hr s ⟨_, _, hc, Or.inl ⟨n, rfl⟩⟩)
  | _ => simp [classText]

/-- Finishes at every sufficient depth. -/
def Finishes (env : Env) (t : Str) (rt : Nat) : Prop := ∃ N, ∀ n, N ≤ n → typeStructText env n t rt ≠ .diverge

/-- The parts are finitely many, so a common depth exists. -/
theorem finishes_list {env : Env} {rt : Nat} (l : List Str) (h : ∀ t ∈ l, Finishes env t rt) :
    ∃ N, ∀ t ∈ l, ∀ n, N ≤ n → typeStructText env n t rt ≠ .diverge := by
  induction l with
  | nil => exact ⟨0, by simp⟩
  | cons t l ih =>
    obtain ⟨N, hN⟩ := ih (fun u hu => h u (by simp [hu]))
    obtain ⟨M, hM⟩ := h t (by simp)
    refine ⟨max N M, fun u hu n hn => ?_⟩
    rcases List.mem_cons.1 hu with rfl | hu
    · exact hM n (by omega)
    · exact hN u hu n (by omega)

/-- Closes the goals of the three lemmas below. -/
local macro "parts_tac" hc:ident : tactic => `(tactic|
  exact fun u => ⟨by rintro ⟨c', o, h, H⟩; rw [$hc:ident] at h; cases h; simpa using H,
    fun h => ⟨_, _, $hc, by simpa using h⟩⟩)

/-- A finite list of the parts of one kind. -/
theorem wrap_list (env : Env) (t : Str) : ∃ l : List Str, ∀ u, Spec.WrapOf env t u ↔ u ∈ l := by
  rcases hc : getCodecClass env [] 0 t with (_ | ⟨c, opt⟩) | _ | _
  · exact ⟨[], by simp [Spec.WrapOf, hc]⟩
  · cases c with
    | option s => exact ⟨[effSub s opt], by parts_tac hc⟩
    | vec s => exact ⟨[if s = [] then opt else s], by parts_tac hc⟩
    | boundedVec s => exact ⟨[boundedSub s opt], by parts_tac hc⟩
    | authoritiesChange => exact ⟨[b!"AccountId"], by parts_tac hc⟩
    | _ => exact ⟨[], by simp [Spec.WrapOf, hc]⟩
  · exact ⟨[], by simp [Spec.WrapOf, hc]⟩
  · exact ⟨[], by simp [Spec.WrapOf, hc]⟩

theorem member_list (env : Env) (t : Str) : ∃ l : List Str, ∀ u, Spec.MemberOf env t u ↔ u ∈ l := by
  rcases hc : getCodecClass env [] 0 t with (_ | ⟨c, opt⟩) | _ | _
  · exact ⟨[], by simp [Spec.MemberOf, hc]⟩
  · cases c with
    | struct tm =>
      cases tm with
      | none => exact ⟨[], by simp [Spec.MemberOf, hc]⟩
      | some tm => exact ⟨tm.map (·.2), by parts_tac hc⟩
    | enum vs tm =>
      cases tm with
      | none => exact ⟨[], by simp [Spec.MemberOf, hc]⟩
      | some tm => exact ⟨tm.map (·.2), fun u =>
        ⟨fun H => by
            obtain ⟨c', o, h, H⟩ := H
            rw [hc] at h; cases h
            rcases H with ⟨_, h, _⟩ | ⟨_, _, h, H⟩ | ⟨h, _⟩
            · exact Cls.noConfusion h
            · simp only [Cls.enum.injEq, Option.some.injEq] at h
              rw [h.2]; exact H
            · exact Cls.noConfusion h,
         fun h => ⟨_, _, hc, Or.inr (Or.inl ⟨vs, tm, rfl, h⟩)⟩⟩⟩
    | data => exact ⟨dataTM.map (·.2), by parts_tac hc⟩
    | _ => exact ⟨[], by simp [Spec.MemberOf, hc]⟩
  · exact ⟨[], by simp [Spec.MemberOf, hc]⟩
  · exact ⟨[], by simp [Spec.MemberOf, hc]⟩

theorem reset_list (env : Env) (t : Str) : ∃ l : List Str, ∀ u, Spec.ResetOf env t u ↔ u ∈ l := by
  rcases hc : getCodecClass env [] 0 t with (_ | ⟨c, opt⟩) | _ | _
  · exact ⟨[], by simp [Spec.ResetOf, hc]⟩
  · cases c with
    | fixedArray n s =>
      exact ⟨[s], fun u =>
        ⟨by rintro ⟨c', o, h, H⟩
            rw [hc] at h; cases h
            simpa [eq_comm] using H,
         fun h => ⟨_, _, hc, Or.inl ⟨n, by simp at h; rw [h]⟩⟩⟩⟩
    | btreeMap s => exact ⟨splitSep (effSub s opt) b!",", by parts_tac hc⟩
    | result s => exact ⟨splitSep (effSub s opt) b!",", by parts_tac hc⟩
    | _ => exact ⟨[], by simp [Spec.ResetOf, hc]⟩
  · exact ⟨[], by simp [Spec.ResetOf, hc]⟩
  · exact ⟨[], by simp [Spec.ResetOf, hc]⟩

theorem finishes_step {env : Env} {t : Str} {rt : Nat}
    (hw : ∀ u, Spec.WrapOf env t u → Finishes env u rt)
    (hm : rt < 5 → ∀ u, Spec.MemberOf env t u → Finishes env u (rt + 1))
    (hr : ∀ u, Spec.ResetOf env t u → Finishes env u 0) : Finishes env t rt := by
  obtain ⟨lw, hlw⟩ := wrap_list env t
  obtain ⟨lm, hlm⟩ := member_list env t
  obtain ⟨lr, hlr⟩ := reset_list env t
  obtain ⟨A, hA⟩ := finishes_list lw (fun u hu => hw u ((hlw u).2 hu))
  obtain ⟨C, hC⟩ := finishes_list lr (fun u hu => hr u ((hlr u).2 hu))
  obtain ⟨B, hB⟩ : ∃ B, rt < 5 → ∀ u ∈ lm, ∀ n, B ≤ n → typeStructText env n u (rt + 1) ≠ .diverge := by
    by_cases h5 : rt < 5
    · obtain ⟨B, hB⟩ := finishes_list lm (fun u hu => hm h5 u ((hlm u).2 hu))
      exact ⟨B, fun _ => hB⟩
    · exact ⟨0, fun h => absurd h h5⟩
  refine ⟨A + B + C + 1, fun n hn => ?_⟩
  obtain ⟨n, rfl⟩ : ∃ k, n = k + 1 := ⟨n - 1, by omega⟩
  unfold typeStructText
  rcases hc : getCodecClass env [] 0 t with (_ | ⟨c, opt⟩) | _ | _
  · simp
  · exact classText_ne_diverge hc (fun u hu => hA u ((hlw u).1 hu) n (by omega))
      (fun h5 u hu => hB h5 u ((hlm u).1 hu) n (by omega)) (fun u hu => hC u ((hlr u).1 hu) n (by omega))
  · simp
  · exact absurd hc (getCodecClass_ne_diverge _ _ _ _)

/-- Expansion of one type name finishes when nothing in it contains itself through uncounted layers only, nor through an
array, map or `Result`. -/
theorem C41_expand_partial (env : Env) (t : Str) (rt : Nat)
    (hw : ∀ s, Relation.ReflTransGen (Spec.PartOf env) t s → Acc (fun u t => Spec.WrapOf env t u) s)
    (hr : Acc (Spec.BelowReset env) t) :
    ∃ N, ∀ n, N ≤ n → typeStructText env n t rt ≠ .diverge := by
  induction hr generalizing rt with
  | intro t _ ihr =>
    have up : ∀ s, Relation.ReflTransGen (fun a b => Spec.WrapOf env a b ∨ Spec.MemberOf env a b) t s →
        Relation.ReflTransGen (Spec.PartOf env) t s :=
      fun s hs => by
        induction hs with
        | refl => exact .refl
        | tail _ h ih => exact ih.tail (h.elim Or.inl (fun h => Or.inr (Or.inl h)))
    have ihr' : ∀ s u, Relation.ReflTransGen (fun a b => Spec.WrapOf env a b ∨ Spec.MemberOf env a b) t s →
        Spec.ResetOf env s u → Finishes env u 0 :=
      fun s u hs hu => ihr u ⟨s, hs, hu⟩ 0 (fun s' hs' => hw s' (((up s hs).tail (Or.inr (Or.inr hu))).trans hs'))
    suffices H : ∀ (k rt : Nat) (s : Str), 5 - rt ≤ k →
        Relation.ReflTransGen (fun a b => Spec.WrapOf env a b ∨ Spec.MemberOf env a b) t s → Finishes env s rt from
      H 5 rt t (by omega) .refl
    intro k
    induction k with
    | zero =>
      intro rt s hk hs
      have ha := hw s (up s hs)
      induction ha with
      | intro s _ ihs =>
        exact finishes_step (fun u hu => ihs u hu (hs.tail (Or.inl hu))) (fun h5 => by omega)
          (fun u hu => ihr' s u hs hu)
    | succ k ihk =>
      intro rt s hk hs
      have ha := hw s (up s hs)
      induction ha with
      | intro s _ ihs =>
        exact finishes_step (fun u hu => ihs u hu (hs.tail (Or.inl hu)))
          (fun h5 u hu => ihk (rt + 1) u (by omega) (hs.tail (Or.inr hu)))
          (fun u hu => ihr' s u hs hu)

/-- Comparison finishes for such types, in particular for every struct or enum that contains itself directly or through
`Vec` and `Option` (the kinds of recursive type the depth limit was made for). What is missing from the full property are
types containing themselves through an array, a map or a `Result`, and lists of themselves: for those the code does not
return (`C41_claim_false`, `C41_array_of_itself`, `C41_list_of_itself`). -/
theorem C41_partial (env : Env) (a b : Str)
    (hw : ∀ s, Relation.ReflTransGen (Spec.PartOf env) a s ∨ Relation.ReflTransGen (Spec.PartOf env) b s →
      Acc (fun u t => Spec.WrapOf env t u) s)
    (ha : Acc (Spec.BelowReset env) a) (hb : Acc (Spec.BelowReset env) b) :
    ∃ N, ∀ n, N ≤ n → eqTypes env n a b ≠ .diverge := by
  obtain ⟨N, hN⟩ := C41_expand_partial env a 0 (fun s hs => hw s (Or.inl hs)) ha
  obtain ⟨M, hM⟩ := C41_expand_partial env b 0 (fun s hs => hw s (Or.inr hs)) hb
  refine ⟨N + M, fun n hn => ?_⟩
  unfold eqTypes
  exact bind_ne_diverge (hN n (by omega)) (fun x => bind_ok_ne_diverge (hM n (by omega)))

/-- The same with the absence of such cycles given by two rankings of a set of names closed under taking parts. -/
theorem C41_ranked_partial (env : Env) (S : Str → Prop) (d e : Str → Nat) (a b : Str) (ha : S a) (hb : S b)
    (hw : ∀ t u, S t → Spec.WrapOf env t u → S u ∧ d u ≤ d t ∧ e u < e t)
    (hm : ∀ t u, S t → Spec.MemberOf env t u → S u ∧ d u ≤ d t)
    (hr : ∀ t u, S t → Spec.ResetOf env t u → S u ∧ d u < d t) :
    ∃ N, ∀ n, N ≤ n → eqTypes env n a b ≠ .diverge := by
  have hS : ∀ t s, S t → Relation.ReflTransGen (Spec.PartOf env) t s → S s := by
    intro t s ht h
    induction h with
    | refl => exact ht
    | tail _ hp ih =>
      rcases hp with hp | hp | hp
      · exact (hw _ _ ih hp).1
      · exact (hm _ _ ih hp).1
      · exact (hr _ _ ih hp).1
  have accW : ∀ (k : Nat) s, S s → e s < k → Acc (fun u t => Spec.WrapOf env t u) s := by
    intro k
    induction k with
    | zero => intro s _ h; omega
    | succ k ih =>
      intro s hs hk
      refine ⟨_, fun u hu => ?_⟩
      obtain ⟨h1, _, h3⟩ := hw s u hs hu
      exact ih u h1 (by omega)
  have accR : ∀ (k : Nat) s, S s → d s < k → Acc (Spec.BelowReset env) s := by
    intro k
    induction k with
    | zero => intro s _ h; omega
    | succ k ih =>
      intro s hs hk
      refine ⟨_, fun u hu => ?_⟩
      obtain ⟨m, hm', hu⟩ := hu
      have hm2 : S m ∧ d m ≤ d s := by
        clear hu
        induction hm' with
        | refl => exact ⟨hs, le_refl _⟩
        | tail _ hp ih =>
          rcases hp with hp | hp
          · obtain ⟨h1, h2, _⟩ := hw _ _ ih.1 hp
            exact ⟨h1, by omega⟩
          · obtain ⟨h1, h2⟩ := hm _ _ ih.1 hp
            exact ⟨h1, by omega⟩
      obtain ⟨h1, h2⟩ := hr m u hm2.1 hu
      exact ih u h1 (by omega)
  refine C41_partial env a b (fun s hs => ?_) (accR _ a ha (Nat.lt_succ_self _)) (accR _ b hb (Nat.lt_succ_self _))
  rcases hs with hs | hs
  · exact accW _ s (hS _ _ ha hs) (Nat.lt_succ_self _)
  · exact accW _ s (hS _ _ hb hs) (Nat.lt_succ_self _)

/-! ## Types for which the comparison does not return -/

/-- A type registered as an array of itself (as `T = [T; 2]`): expansion never finishes. -/
theorem C41_array_of_itself (env : Env) (t opt : Str) (k : Int)
    (h : getCodecClass env [] 0 t = .ok (some (.fixedArray k t, opt))) (n rt : Nat) :
    typeStructText env n t rt = .diverge := by
  induction n generalizing rt with
  | zero => rfl
  | succ n ih =>
    unfold typeStructText
    rw [h]
    simp [classText, ih]

/-- A type registered as a list of itself (as `T = Vec<T>`): expansion never finishes. -/
theorem C41_list_of_itself (env : Env) (t opt : Str) (ht : t ≠ [])
    (h : getCodecClass env [] 0 t = .ok (some (.vec t, opt))) (n rt : Nat) :
    typeStructText env n t rt = .diverge := by
  induction n generalizing rt with
  | zero => rfl
  | succ n ih =>
    unfold typeStructText
    rw [h]
    simp [classText, ht, ih]

/-- A struct of a number and a map from numbers to values of the same struct. -/
def nodeEnv : Env :=
  addTypes (baseEnv dummyExt) [(b!"node", .struct (some [(b!"id", b!"u16"), (b!"next", b!"BTreeMap<u8,Node>")]))]

theorem node_diverges (n : Nat) : ∀ rt, rt < 5 → typeStructText nodeEnv n b!"Node" rt = .diverge := by
  induction n using Nat.strong_induction_on with
  | _ n ih =>
    intro rt h5
    have c1 : getCodecClass nodeEnv [] 0 b!"Node" =
        .ok (some (.struct (some [(b!"id", b!"u16"), (b!"next", b!"BTreeMap<u8,Node>")]), [])) := by kernel_rfl
    have c2 : getCodecClass nodeEnv [] 0 b!"BTreeMap<u8,Node>" = .ok (some (.btreeMap [], b!"u8,Node")) := by kernel_rfl
    have c3 : getCodecClass nodeEnv [] 0 b!"u8" = .ok (some (.u8, [])) := by kernel_rfl
    have c4 : getCodecClass nodeEnv [] 0 b!"u16" = .ok (some (.u16, [])) := by kernel_rfl
    have hsp : splitSep (effSub [] b!"u8,Node") b!"," = [b!"u8", b!"Node"] := by decide +kernel
    match n with
    | 0 => rfl
    | 1 =>
      unfold typeStructText
      rw [c1]
      have : ¬ (5 < rt + 1) := by omega
      simp [classText, mappingText, membersText, typeStructText, limitRecursiveTime, this]
    | 2 =>
      unfold typeStructText
      rw [c1]
      have : ¬ (5 < rt + 1) := by omega
      simp [classText, mappingText, membersText, typeStructText, limitRecursiveTime, this, c2, c4, pairText, hsp]
    | n + 3 =>
      have h0 := ih (n + 1) (by omega) 0 (by omega)
      unfold typeStructText
      rw [c1]
      have : ¬ (5 < rt + 1) := by omega
      have e1 : typeStructText nodeEnv (n + 2) b!"u16" (rt + 1) = .ok b!"U16" := by
        unfold typeStructText; rw [c4]; rfl
      have e2 : typeStructText nodeEnv (n + 2) b!"BTreeMap<u8,Node>" (rt + 1) = .diverge := by
        have e3 : typeStructText nodeEnv (n + 1) b!"u8" 0 = .ok b!"U8" := by
          unfold typeStructText; rw [c3]; rfl
        unfold typeStructText; rw [c2]
        simp only [Res.ok_bind, classText, pairText, hsp, e3, h0, Res.diverge_bind]
      simp [classText, mappingText, membersText, limitRecursiveTime, this, e1, e2]

/-- The full property fails: the comparison of this struct with itself does not return. -/
theorem C41_claim_false : ¬ C41Claim := by
  intro h
  obtain ⟨N, hN⟩ := h nodeEnv b!"Node" b!"Node"
  refine hN N (le_refl _) ?_
  unfold eqTypes
  rw [node_diverges N 0 (by omega)]
  rfl

/-! ## A recursive type for which it returns -/

def kidsEnv : Env :=
  addTypes (baseEnv dummyExt) [(b!"tree", .struct (some [(b!"v", b!"u16"), (b!"kids", b!"Vec<Tree>")]))]

theorem kids_classes : getCodecClass kidsEnv [] 0 b!"Tree" =
      .ok (some (.struct (some [(b!"v", b!"u16"), (b!"kids", b!"Vec<Tree>")]), [])) ∧
    getCodecClass kidsEnv [] 0 b!"Vec<Tree>" = .ok (some (.vec [], b!"Tree")) ∧
    getCodecClass kidsEnv [] 0 b!"u16" = .ok (some (.u16, [])) :=
  ⟨by kernel_rfl, by kernel_rfl, by kernel_rfl⟩

/-- The tree type contains itself through a `Vec`; the hypotheses of `C41_ranked_partial` hold. -/
example : ∃ N, ∀ n, N ≤ n → eqTypes kidsEnv n b!"Tree" b!"Vec<Tree>" ≠ .diverge := by
  obtain ⟨c1, c2, c3⟩ := kids_classes
  refine C41_ranked_partial kidsEnv (fun t => t = b!"Tree" ∨ t = b!"Vec<Tree>" ∨ t = b!"u16") (fun _ => 0)
    (fun t => if t = b!"Vec<Tree>" then 1 else 0) _ _ (by simp) (by simp) ?_ ?_ ?_
  · rintro t u (rfl | rfl | rfl) ⟨c, o, hc, H⟩ <;> simp only [c1, c2, c3] at hc <;> cases hc <;> simp at H
    subst H
    decide
  · rintro t u (rfl | rfl | rfl) ⟨c, o, hc, H⟩ <;> simp only [c1, c2, c3] at hc <;> cases hc <;> simp at H
    obtain ⟨_, ⟨_, rfl⟩ | ⟨_, rfl⟩⟩ := H <;> simp
  · rintro t u (rfl | rfl | rfl) ⟨c, o, hc, H⟩ <;> simp only [c1, c2, c3] at hc <;> cases hc <;> simp at H

/-- It is expanded five levels deep. -/
example : typeStructText kidsEnv 12 b!"Tree" 0 =
    .ok b!"Struct(U16,Vec<Struct(U16,Vec<Struct(U16,Vec<Struct(U16,Vec<Struct(U16,Vec<Struct(...)>)>)>)>)>)" := by
  decide +kernel

end ScaleGo
