import Mathlib.Data.List.Nodup
import Verif.Model.Metadata
import Verif.Lemmas.History
import Verif.Lemmas.KernelRfl
import Verif.Props.C23
import Verif.Props.C30
import Verif.Props.C28

/-! # C39: the origin caller enum -/

namespace ScaleGo

namespace Spec

/-- The payload type of the origin of a module (types/v13.go:24-34): only these modules have one. -/
def originPayload (module : Str) : Str :=
  if module = b!"System" then b!"SystemOrigin"
  else if module = b!"Council" ∨ module = b!"TechnicalCommittee" ∨ module = b!"GeneralCouncil" then b!"CollectiveOrigin"
  else if module = b!"Xcm" ∨ module = b!"XcmPallet" then b!"XcmOrigin"
  else if module = b!"Authority" then b!"AuthorityOrigin"
  else b!"NULL"

/-- `rows` lists the variants: a module's variant is at the position of its index, every other position up to the largest index
is a filler without payload. -/
def OriginVariants (mods : List (Str × Nat)) (rows : List (Str × Str)) : Prop :=
  (∀ name idx, (name, idx) ∈ mods → rows[idx]? = some (name, originPayload name)) ∧
  (∀ i, (∀ p ∈ mods, p.2 ≠ i) → (∃ p ∈ mods, i < p.2) → ∃ n, rows[i]? = some (n, b!"NULL")) ∧
  (∀ i, (∀ p ∈ mods, p.2 < i) → rows[i]? = none)

end Spec

open ScaleGo.Spec

theorem knownOrigins_get (name : Str) : (tableGet knownOrigins name).getD b!"NULL" = originPayload name := by
  have h : ∀ p ∈ knownOrigins, (tableGet knownOrigins p.1).getD b!"NULL" = originPayload p.1 := by decide
  by_cases hn : ∃ p ∈ knownOrigins, p.1 = name
  · obtain ⟨p, hp, rfl⟩ := hn
    exact h p hp
  · have h0 : tableGet knownOrigins name = none := by
      cases e : tableGet knownOrigins name with
      | none => rfl
      | some v => exact absurd ⟨_, tableGet_mem e, rfl⟩ hn
    rw [h0]
    simp only [knownOrigins, List.mem_cons, List.not_mem_nil, or_false, exists_eq_or_imp, exists_eq_left, not_or] at hn
    obtain ⟨h1, h2, h3, h4, h5, h6, h7⟩ := hn
    unfold originPayload
    rw [if_neg (Ne.symm h2), if_neg (by rintro (h | h | h) <;> simp_all), if_neg (by rintro (h | h) <;> simp_all), if_neg (Ne.symm h6)]
    rfl

/-! ## Sorting -/

theorem insertBy_perm {α : Type} (key : α → Nat) (x : α) (l : List α) : (insertBy key x l).Perm (x :: l) := by
  induction l with
  | nil => exact .refl _
  | cons y ys ih =>
    unfold insertBy
    split
    · exact .refl _
    · exact (List.Perm.cons y ih).trans (List.Perm.swap x y ys)

theorem sortBy_perm {α : Type} (key : α → Nat) (l : List α) : (sortBy key l).Perm l := by
  induction l with
  | nil => exact .refl _
  | cons x xs ih => exact (insertBy_perm key x _).trans (List.Perm.cons x ih)

theorem insertBy_sorted {α : Type} (key : α → Nat) (x : α) (l : List α) (h : l.Pairwise (fun a b => key a ≤ key b)) :
    (insertBy key x l).Pairwise (fun a b => key a ≤ key b) := by
  induction l with
  | nil => simp [insertBy]
  | cons y ys ih =>
    rw [List.pairwise_cons] at h
    unfold insertBy
    split
    · rename_i hlt
      rw [List.pairwise_cons, List.pairwise_cons]
      refine ⟨fun z hz => ?_, h⟩
      rcases List.mem_cons.1 hz with rfl | hz
      · omega
      · have := h.1 z hz; omega
    · rename_i hge
      rw [List.pairwise_cons]
      refine ⟨fun z hz => ?_, ih h.2⟩
      rcases List.mem_cons.1 ((insertBy_perm key x ys).mem_iff.1 hz) with rfl | hz
      · omega
      · exact h.1 z hz

theorem sortBy_sorted {α : Type} (key : α → Nat) (l : List α) : (sortBy key l).Pairwise (fun a b => key a ≤ key b) := by
  induction l with
  | nil => exact .nil
  | cons x xs ih => exact insertBy_sorted key x _ ih

theorem sortBy_strict {α : Type} (key : α → Nat) (l : List α) (hn : (l.map key).Nodup) :
    (sortBy key l).Pairwise (fun a b => key a < key b) := by
  have h1 := sortBy_sorted key l
  have h2 : ((sortBy key l).map key).Nodup := ((sortBy_perm key l).map key).nodup_iff.2 hn
  have h3 : (sortBy key l).Pairwise (fun a b => key a ≠ key b) := by
    rw [List.Nodup, List.pairwise_map] at h2
    exact h2
  exact (h1.and h3).imp (fun h => by omega)

/-! ## The rows -/

theorem fillEmpty_eq (upto k i : Nat) (h : i + k = upto) :
    fillEmpty upto k i = (List.range' i k).map (fun j => (b!"EMPTY" ++ natToDec j, b!"NULL")) := by
  induction k generalizing i with
  | zero => rfl
  | succ k ih =>
    rw [fillEmpty, if_pos (by omega), ih (i + 1) (by omega), List.range'_succ, List.map_cons]

theorem fillEmpty_self (upto i : Nat) :
    fillEmpty upto (upto - i) i = (List.range' i (upto - i)).map (fun j => (b!"EMPTY" ++ natToDec j, b!"NULL")) := by
  by_cases h : i ≤ upto
  · exact fillEmpty_eq _ _ _ (by omega)
  · rw [show upto - i = 0 by omega]; rfl

theorem originRows_spec (l : List (Str × Nat)) : ∀ acc : List (Str × Str), l.Pairwise (fun p q => p.2 < q.2) →
    (∀ p ∈ l, acc.length ≤ p.2) →
    (∀ i, i < acc.length → (originRows l acc)[i]? = acc[i]?) ∧
    (∀ p ∈ l, (originRows l acc)[p.2]? = some (p.1, originPayload p.1)) ∧
    (∀ i, acc.length ≤ i → (∀ p ∈ l, p.2 ≠ i) → (∃ p ∈ l, i < p.2) → (originRows l acc)[i]? = some (b!"EMPTY" ++ natToDec i, b!"NULL")) ∧
    (∀ i, acc.length ≤ i → (∀ p ∈ l, p.2 < i) → (originRows l acc)[i]? = none) := by
  induction l with
  | nil =>
    intro acc _ _
    refine ⟨fun _ _ => rfl, by simp, fun _ _ _ h => by obtain ⟨_, h, _⟩ := h; simp at h, fun i hi _ => ?_⟩
    rw [originRows]
    exact List.getElem?_eq_none hi
  | cons p rest ih =>
    intro acc hp hle
    obtain ⟨name, idx⟩ := p
    rw [List.pairwise_cons] at hp
    have hidx : acc.length ≤ idx := hle _ List.mem_cons_self
    rw [originRows, fillEmpty_self, knownOrigins_get]
    generalize hacc : acc ++ (List.range' acc.length (idx - acc.length)).map (fun j => (b!"EMPTY" ++ natToDec j, b!"NULL")) ++
      [(name, originPayload name)] = acc'
    have hlen : acc'.length = idx + 1 := by
      rw [← hacc]
      simp only [List.length_append, List.length_map, List.length_range', List.length_cons, List.length_nil]
      omega
    obtain ⟨h1, h2, h3, h4⟩ := ih acc' hp.2 (fun q hq => by have := hp.1 q hq; dsimp only at this; omega)
    have get0 : ∀ i, i < acc.length → acc'[i]? = acc[i]? := fun i hi => by
      rw [← hacc, List.append_assoc, List.getElem?_append_left hi]
    have get1 : ∀ i, acc.length ≤ i → i < idx → acc'[i]? = some (b!"EMPTY" ++ natToDec i, b!"NULL") := fun i hi hi' => by
      rw [← hacc, List.append_assoc, List.getElem?_append_right hi, List.getElem?_append_left (by simp; omega), List.getElem?_map,
        List.getElem?_range' (by omega)]
      simp only [Option.map_some, one_mul]
      rw [show acc.length + (i - acc.length) = i by omega]
    have get2 : acc'[idx]? = some (name, originPayload name) := by
      rw [← hacc, List.getElem?_append_right (by simp; omega)]
      simp only [List.length_append, List.length_map, List.length_range']
      rw [show idx - (acc.length + (idx - acc.length)) = 0 by omega]
      rfl
    refine ⟨fun i hi => ?_, fun q hq => ?_, fun i hi hne hex => ?_, fun i hi hlt => ?_⟩
    · rw [h1 i (by omega), get0 i hi]
    · rcases List.mem_cons.1 hq with rfl | hq
      · rw [h1 _ (by dsimp only; omega), get2]
      · exact h2 q hq
    · by_cases hi' : i < idx
      · rw [h1 i (by omega), get1 i hi hi']
      · have hne0 : idx ≠ i := hne (name, idx) List.mem_cons_self
        refine h3 i (by omega) (fun q hq => hne q (List.mem_cons_of_mem _ hq)) ?_
        obtain ⟨q, hq, hql⟩ := hex
        rcases List.mem_cons.1 hq with rfl | hq
        · dsimp only at hql; omega
        · exact ⟨q, hq, hql⟩
    · have : idx < i := hlt (name, idx) List.mem_cons_self
      exact h4 i (by omega) (fun q hq => hlt q (List.mem_cons_of_mem _ hq))

/-- The registered enum has the variant of each module at the position of the module's index, fillers in the gaps, and nothing
behind the largest index. -/
theorem C39_position (env : Env) (mods : List (Str × Nat)) (hd : (mods.map (·.2)).Nodup) :
    ∃ rows, (registerOriginCaller env mods).reg b!"origincaller" = some (.enum [] (some rows)) ∧ OriginVariants mods rows := by
  refine ⟨originRows (sortBy (·.2) mods) [], ?_, ?_⟩
  · unfold registerOriginCaller regCustomKey
    rw [show splitSep b!"origincaller" b!"#" = [b!"origincaller"] by kernel_rfl]
    simp [setReg]
  · have hm : ∀ p, p ∈ sortBy (·.2) mods ↔ p ∈ mods := fun p => (sortBy_perm (·.2) mods).mem_iff
    obtain ⟨-, h2, h3, h4⟩ := originRows_spec (sortBy (·.2) mods) [] (sortBy_strict (·.2) mods hd) (by simp)
    refine ⟨fun name idx h => h2 _ ((hm _).2 h), fun i hne hex => ?_, fun i hlt => ?_⟩
    · obtain ⟨p, hp, hlt⟩ := hex
      exact ⟨_, h3 i (Nat.zero_le _) (fun p hp => hne p ((hm p).1 hp)) ⟨p, (hm p).2 hp, hlt⟩⟩
    · exact h4 i (Nat.zero_le _) (fun p hp => hlt p ((hm p).1 hp))

theorem originPayload_text (name : Str) : originPayload name ≠ [] ∧ ¬ LooksLikeRows (originPayload name) ∧ ¬ IsNumberText (originPayload name) := by
  unfold originPayload
  repeat' split
  all_goals
    refine ⟨by decide, ?_, ?_⟩
    · rintro ⟨r, hr⟩
      revert hr
      simp
    · rw [← isNumber_iff]; decide

theorem notOverridden_originCaller (m : Str) : NotOverridden m b!"OriginCaller" := by
  have : ∀ row ∈ typesModules, ∀ p ∈ row.2, ¬ SameName p.1 b!"OriginCaller" := by decide +kernel
  exact fun row hr _ p hp => this row hr p hp

theorem resolves_originCaller (env : Env) (mods : List (Str × Nat)) (m : Str) (spec : Int) (c : Cls)
    (hs : findSpecial spec (env.special b!"origincaller") = none)
    (hc : (registerOriginCaller env mods).reg b!"origincaller" = some c) :
    Resolves (registerOriginCaller env mods) m spec b!"OriginCaller" c [] := by
  unfold Resolves
  rw [getCodecClass_plain _ spec (by decide +kernel) (by decide +kernel) (moduleType_notOverridden (notOverridden_originCaller m)),
    show toLower b!"OriginCaller" = b!"origincaller" by kernel_rfl, hc]
  have : (registerOriginCaller env mods).special b!"origincaller" = env.special b!"origincaller" := by
    unfold registerOriginCaller regCustomKey
    rw [show splitSep b!"origincaller" b!"#" = [b!"origincaller"] by kernel_rfl]
    rfl
  rw [this, hs]
  rfl

/-- Decoding an `OriginCaller` whose first byte is a module index selects that module; the payload of its type follows. -/
theorem C39_decode (env : Env) (mods : List (Str × Nat)) (hd : (mods.map (·.2)).Nodup) (ctx : Ctx) (name : Str) (i : UInt8) (b : Str)
    (v : Val) (ic : List Str) (hs : findSpecial ctx.spec (env.special b!"origincaller") = none) (hm : (name, i.toNat) ∈ mods)
    (hp : Decodes (registerOriginCaller env mods) ctx (originPayload name) b v ic) :
    Decodes (registerOriginCaller env mods) ctx b!"OriginCaller" (i :: b) (.map [(name, v)]) ic := by
  obtain ⟨rows, hr, hv⟩ := C39_position env mods hd
  have hrow := hv.1 name i.toNat hm
  obtain ⟨h1, h2, h3⟩ := originPayload_text name
  exact C23_decode_data _ ctx _ [] [] rows i name _ b v ic (fun hc => h3 (hc _ (List.mem_of_getElem? hrow))) hrow h1 h2
    (resolves_originCaller env mods ctx.module ctx.spec _ hs hr) hp

/-- A byte beyond the largest index is refused (there being at least one module). -/
theorem C39_refuse (env : Env) (mods : List (Str × Nat)) (hd : (mods.map (·.2)).Nodup) (ctx : Ctx) (i : UInt8) (hne : mods ≠ [])
    (hs : findSpecial ctx.spec (env.special b!"origincaller") = none) (hm : ∀ p ∈ mods, p.2 < i.toNat) :
    DecodeRefuses (registerOriginCaller env mods) ctx b!"OriginCaller" [i] := by
  obtain ⟨rows, hr, hv⟩ := C39_position env mods hd
  obtain ⟨p, hp⟩ := List.exists_mem_of_ne_nil _ hne
  have hrow := hv.1 p.1 p.2 hp
  obtain ⟨-, -, h3⟩ := originPayload_text p.1
  exact C23_refuse_data _ ctx _ [] [] rows i (fun hc => h3 (hc _ (List.mem_of_getElem? hrow)))
    (by rw [← List.getElem?_eq_none_iff]; exact hv.2.2 _ hm) (resolves_originCaller env mods ctx.module ctx.spec _ hs hr)

/-- Three modules, unordered, with gaps. -/
def originModules : List (Str × Nat) := [(b!"Council", 5), (b!"System", 0), (b!"Sudo", 2)]

example : (originModules.map (·.2)).Nodup := by decide

example : originRows (sortBy (·.2) originModules) [] =
    [(b!"System", b!"SystemOrigin"), (b!"EMPTY1", b!"NULL"), (b!"Sudo", b!"NULL"), (b!"EMPTY3", b!"NULL"), (b!"EMPTY4", b!"NULL"),
     (b!"Council", b!"CollectiveOrigin")] := by kernel_rfl

theorem resolves_null (ctx : Ctx) : Resolves (registerOriginCaller (baseEnv dummyExt) originModules) ctx.module ctx.spec b!"NULL" .null [] := by
  unfold Resolves
  rw [getCodecClass_plain _ ctx.spec (by decide +kernel) (by decide +kernel)]
  · rfl
  · refine moduleType_notOverridden ?_
    have : ∀ row ∈ typesModules, ∀ p ∈ row.2, ¬ SameName p.1 b!"NULL" := by decide +kernel
    exact fun row hr _ p hp => this row hr p hp

example (ctx : Ctx) : Decodes (registerOriginCaller (baseEnv dummyExt) originModules) ctx b!"OriginCaller" [2] (.map [(b!"Sudo", .nil)]) [] :=
  C39_decode (baseEnv dummyExt) originModules (by decide) ctx b!"Sudo" 2 [] .nil [] rfl (by decide)
    (null_decodes (s := []) (resolves_null ctx))

end ScaleGo
