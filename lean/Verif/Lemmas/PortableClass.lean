import Mathlib.Data.List.TakeWhile
import Verif.Lemmas.PortableShape

/-! # Entries of a portable registry stand for the shapes of the types -/

namespace ScaleGo
open _root_.Spec (Shape Payload labelled numbered payload primitiveShapes crateShapes compactShapes byteNames)
open ScaleGo.Spec

/-! ## Forms of alias texts -/

theorem parts_generic {w s : Str} (hw : (60 : UInt8) ∉ w) (hs : Clean s) : partsOf (generic w s) = some (w, s) := by
  unfold partsOf
  rw [if_pos (generic_ends w s)]
  refine generic_parts hw hs.ne_nil fun h => ?_
  exact absurd (hs.body.bytes 10 h) (by decide)

theorem alias_vec {s : Str} (hs : Clean s) : aliasClass (generic b!"Vec" s) = .ok (some (.vec s)) := by
  unfold aliasClass
  rw [if_neg (by simp [generic]), parts_generic (by decide) hs]
  rfl

theorem alias_option {s : Str} (hs : Clean s) : aliasClass (generic b!"option" s) = .ok (some (.option s)) := by
  unfold aliasClass
  rw [if_neg (by simp [generic]), parts_generic (by decide) hs]
  rfl

theorem alias_compact {s : Str} (hs : Clean s) : aliasClass (generic b!"compact" s) = .ok (some (.compact s)) := by
  unfold aliasClass
  rw [if_neg (by simp [generic]), parts_generic (by decide) hs]
  rfl

theorem alias_array {s : Str} {n : Nat} (hs : Clean s) (h59 : (59 : UInt8) ∉ s) (hn : n < 2 ^ 63) :
    aliasClass (arrayText s 1 n) = .ok (some (.fixedArray n s)) := by
  have hd : ∀ c ∈ natToDec n, isDigit c = true := List.all_eq_true.1 (natToDec_digits n)
  have hr : (59 : UInt8) ∉ List.replicate 1 32 ++ natToDec n := by
    intro h
    rcases List.mem_append.1 h with h | h
    · exact absurd (List.eq_of_mem_replicate h) (by decide)
    · exact absurd (hd _ h) (by decide)
  have e0 : ((arrayText s 1 n).drop 1).dropLast = s ++ 59 :: (List.replicate 1 32 ++ natToDec n) := by
    simp only [arrayText, List.drop_succ_cons, List.drop_zero, List.append_assoc, List.cons_append]
    rw [show s ++ 59 :: (List.replicate 1 32 ++ (natToDec n ++ [93])) = (s ++ 59 :: (List.replicate 1 32 ++ natToDec n)) ++ [93] by simp,
      List.dropLast_concat]
  have e1 : splitSep ((arrayText s 1 n).drop 1).dropLast b!";" = [s, List.replicate 1 32 ++ natToDec n] := by
    rw [e0]
    have h1 := splitSepAux_last_one 59 hr s []
    have h2 : splitSep s b!";" = [s] := splitSep_absent 59 (by decide) h59
    unfold splitSep at h2 ⊢
    rw [show (b!";" : Str) = [59] from rfl] at *
    rw [h1, h2]; rfl
  have hf := fixedArrayText_eq s 1 n hs.trimmed hn
  unfold fixedArrayText at hf
  simp only [e1] at hf
  have hend : endsWith (arrayText s 1 n) 93 = true := by
    unfold endsWith arrayText
    rw [show 91 :: (s ++ 59 :: (List.replicate 1 32 ++ natToDec n) ++ [93]) =
      (91 :: (s ++ 59 :: (List.replicate 1 32 ++ natToDec n))) ++ [93] by simp, List.getLast?_concat]
    rfl
  have hend' : ¬ endsWith (arrayText s 1 n) 62 = true := by
    unfold endsWith arrayText
    rw [show 91 :: (s ++ 59 :: (List.replicate 1 32 ++ natToDec n) ++ [93]) =
      (91 :: (s ++ 59 :: (List.replicate 1 32 ++ natToDec n))) ++ [93] by simp, List.getLast?_concat]
    decide
  have hp : partsOf (arrayText s 1 n) = none := by unfold partsOf; rw [if_neg hend']
  have hne : arrayText s 1 n ≠ b!"[]" := by
    intro e
    have := congrArg List.length e
    simp [arrayText] at this
    omega
  unfold aliasClass
  rw [if_neg (by simp [arrayText]), hp]
  simp only
  rw [if_neg (by rintro ⟨_, h, _⟩; simp [arrayText] at h), if_pos ⟨hne, rfl, hend⟩, e1]
  simp only
  simp only [List.length_cons, List.length_nil, Nat.reduceLeDiff, if_true] at hf
  exact congrArg Res.ok hf

/-- The text of an array whose element text has a semicolon has no form. -/
theorem alias_semicolon {s : Str} {n : Nat} (h59 : (59 : UInt8) ∈ s) : aliasClass (arrayText s 1 n) = .ok none := by
  have e : arrayText s 1 n = (91 :: (s ++ 59 :: (32 :: natToDec n))) ++ [93] := by simp [arrayText]
  have hp : partsOf ((91 :: (s ++ 59 :: (32 :: natToDec n))) ++ [93]) = none := by
    unfold partsOf
    rw [if_neg]
    unfold endsWith
    rw [List.getLast?_concat]
    decide
  rw [e]
  unfold aliasClass
  rw [if_neg (by simp), hp]
  dsimp only
  rw [if_neg (fun h => absurd h.2.1 (by simp)), if_pos ⟨fun h => by have := congrArg List.length h; simp at this; omega, by simp,
    by unfold endsWith; rw [List.getLast?_concat]; rfl⟩, List.cons_append, List.drop_succ_cons, List.drop_zero, List.dropLast_concat]
  obtain ⟨a, r, rfl, ha⟩ := List.eq_append_cons_of_mem h59
  obtain ⟨a', r', e', ha'⟩ := List.eq_append_cons_of_mem (show 59 ∈ r ++ 59 :: 32 :: natToDec n by simp)
  rw [List.append_assoc, List.cons_append, show (b!";" : Str) = [59] from rfl, splitSep_one 59 _ _ ha, e', splitSep_one 59 _ _ ha']
  cases h : splitSep r' [59] with
  | nil => exact absurd h (splitSepAux_ne_nil _ _ _ _)
  | cons x l => rfl

/-- A text that is neither generic nor an array. -/
theorem alias_none {t : Str} {c : UInt8} {r : Str} (ht : t = c :: r) (h1 : c ≠ 40) (h2 : c ≠ 91)
    (hp : ∀ h a, partsOf t = some (h, a) → ¬ (equalFold h b!"vec" = true ∨ equalFold h b!"option" = true ∨ equalFold h b!"compact" = true ∨
      equalFold h b!"BTreeMap" = true ∨ equalFold h b!"BTreeSet" = true)) : aliasClass t = .ok none := by
  unfold aliasClass
  rw [if_neg (by rw [ht]; simp)]
  have h3 : ¬ (t ≠ b!"()" ∧ t.head? = some 40 ∧ endsWith t 41 = true) := by rintro ⟨_, h, _⟩; rw [ht] at h; cases h; exact h1 rfl
  have h4 : ¬ (t ≠ b!"[]" ∧ t.head? = some 91 ∧ endsWith t 93 = true) := by rintro ⟨_, h, _⟩; rw [ht] at h; cases h; exact h2 rfl
  cases hp' : partsOf t with
  | none => simp only [if_neg h3, if_neg h4]
  | some p =>
    obtain ⟨h, a⟩ := p
    have := hp h a hp'
    simp only [not_or, Bool.not_eq_true] at this
    simp only [this, Bool.false_eq_true, if_false, if_neg h3, if_neg h4]

theorem parts_head {t h a : Str} (hp : partsOf t = some (h, a)) : (60 : UInt8) ∈ t ∧ h = t.takeWhile (fun x => decide (x ≠ 60)) := by
  unfold partsOf at hp
  split at hp
  · unfold genericParts at hp
    simp only at hp
    split at hp
    · cases hp
    · next e =>
      split at hp
      · cases hp
        refine ⟨?_, rfl⟩
        by_contra hn
        have : t.takeWhile (fun x => decide (x ≠ 60)) = t := by
          refine List.takeWhile_eq_self_iff.2 ?_
          intro x hx
          simp
          rintro rfl
          exact hn hx
        rw [this, List.drop_length] at e
        cases e
      · cases hp
  · cases hp

theorem alias_name {t : Str} (hc : Clean t) (h1 : (60 : UInt8) ∉ t) (h2 : (91 : UInt8) ∉ t) : aliasClass t = .ok none := by
  obtain ⟨c, r, e, hc⟩ := hc.head
  refine alias_none e ?_ ?_ ?_
  · rintro rfl
    rcases hc with ⟨hc, _⟩ | hc
    · exact absurd hc (by decide)
    · cases hc
  · rintro rfl; exact h2 (by rw [e]; simp)
  · intro h a hp
    exact absurd (parts_head hp).1 h1

theorem alias_tuple (s : Str) : aliasClass (b!"Tuple:" ++ s) = .ok none := by
  refine alias_none (c := 84) rfl (by decide) (by decide) ?_
  intro h a hp
  have e := (parts_head hp).2
  have : h.head? = some 84 := by rw [e]; rfl
  cases h with
  | nil => cases this
  | cons c h =>
    cases this
    unfold equalFold
    simp only [beq_iff_eq]
    rintro (h | h | h | h | h) <;> exact absurd (List.cons.inj h).1 (by decide)

theorem alias_result (s : Str) : aliasClass (generic b!"Result" s) = .ok none := by
  refine alias_none (c := 82) rfl (by decide) (by decide) ?_
  intro h a hp
  have e := (parts_head hp).2
  have : h.head? = some 82 := by rw [e]; rfl
  cases h with
  | nil => cases this
  | cons c h =>
    cases this
    unfold equalFold
    simp only [beq_iff_eq]
    rintro (h | h | h | h | h) <;> exact absurd (List.cons.inj h).1 (by decide)

/-! ## What the entries stand for -/

/-- The number types that may be compact resolve. -/
def WordsOK (cfg : SiCfg) (A : Nat → Prop) (env : Env) : Prop :=
  (∀ t ∈ [b!"U64", b!"u64"], ∃ s, Resolves env [] 0 t .u64 s) ∧ (∀ t ∈ [b!"U128", b!"u128"], ∃ s, Resolves env [] 0 t .u128 s) ∧
  ∀ k s w sh, Text cfg A k s → Covered cfg A k w → (w, sh) ∈ wrappedShapes → ∀ t, t = s ∨ t = toLower s →
    ∃ c u, Resolves env [] 0 t c u ∧ Stands cfg A env c u w

/-- The same, where the shape is that of a compact number. -/
def WordsFor (cfg : SiCfg) (A : Nat → Prop) (env : Env) (sh : Shape Nat) : Prop :=
  (∃ b d, sh = .compact b d) → WordsOK cfg A env

section
variable {cfg : SiCfg} {A : Nat → Prop} {base : Str → Option Cls} {env : Env}

theorem stock_stands {t : Str} {sh : Shape Nat} (h : (t, sh) ∈ stockShapes) :
    ∃ c, (toLower t, c) ∈ stockClasses ∧ Stands cfg A env c [] sh := by
  simp only [stockShapes, primitiveShapes, crateShapes, List.cons_append, List.nil_append, List.mem_cons, Prod.mk.injEq,
    List.not_mem_nil, or_false] at h
  rcases h with ⟨rfl, rfl⟩ | ⟨rfl, rfl⟩ | ⟨rfl, rfl⟩ | ⟨rfl, rfl⟩ | ⟨rfl, rfl⟩ | ⟨rfl, rfl⟩ | ⟨rfl, rfl⟩ | ⟨rfl, rfl⟩ | ⟨rfl, rfl⟩ |
    ⟨rfl, rfl⟩ | ⟨rfl, rfl⟩ | ⟨rfl, rfl⟩ | ⟨rfl, rfl⟩ | ⟨rfl, rfl⟩ | ⟨rfl, rfl⟩ | ⟨rfl, rfl⟩ | ⟨rfl, rfl⟩ | ⟨rfl, rfl⟩ | ⟨rfl, rfl⟩ |
    ⟨rfl, rfl⟩ | ⟨rfl, rfl⟩ | ⟨rfl, rfl⟩ | ⟨rfl, rfl⟩ | ⟨rfl, rfl⟩ | ⟨rfl, rfl⟩ | ⟨rfl, rfl⟩ |
    ⟨rfl, rfl⟩ | ⟨rfl, rfl⟩ | ⟨rfl, rfl⟩ | ⟨rfl, rfl⟩ | ⟨rfl, rfl⟩ | ⟨rfl, rfl⟩ | ⟨rfl, rfl⟩ | ⟨rfl, rfl⟩
  · exact ⟨.bool, by decide, .bool, rfl, rfl⟩
  · exact ⟨.string, by decide, .bytes .string, ⟨by decide, rfl⟩, rfl⟩
  · exact ⟨.u8, by decide, .uint 1, ⟨by decide, rfl⟩, rfl⟩
  · exact ⟨.u16, by decide, .uint 2, ⟨by decide, rfl⟩, rfl⟩
  · exact ⟨.u32, by decide, .uint 4, ⟨by decide, rfl⟩, rfl⟩
  · exact ⟨.u64, by decide, .uint 8, ⟨by decide, rfl⟩, rfl⟩
  · exact ⟨.u128, by decide, .u128, rfl, rfl⟩
  · exact ⟨.u256, by decide, .u256, rfl, rfl⟩
  · exact ⟨.intFixed 1, by decide, .int 1, ⟨by decide, rfl⟩, rfl⟩
  · exact ⟨.intFixed 2, by decide, .int 2, ⟨by decide, rfl⟩, rfl⟩
  · exact ⟨.intFixed 4, by decide, .int 4, ⟨by decide, rfl⟩, rfl⟩
  · exact ⟨.intFixed 8, by decide, .int 8, ⟨by decide, rfl⟩, rfl⟩
  · exact ⟨.intFixed 16, by decide, .int 16, ⟨by decide, rfl⟩, rfl⟩
  · exact ⟨.intFixed 32, by decide, .int 32, ⟨by decide, rfl⟩, rfl⟩
  · exact ⟨.bool, by decide, .bool, rfl, rfl⟩
  · exact ⟨.string, by decide, .bytes .string, ⟨by decide, rfl⟩, rfl⟩
  · exact ⟨.u8, by decide, .uint 1, ⟨by decide, rfl⟩, rfl⟩
  · exact ⟨.u16, by decide, .uint 2, ⟨by decide, rfl⟩, rfl⟩
  · exact ⟨.u32, by decide, .uint 4, ⟨by decide, rfl⟩, rfl⟩
  · exact ⟨.u64, by decide, .uint 8, ⟨by decide, rfl⟩, rfl⟩
  · exact ⟨.u128, by decide, .u128, rfl, rfl⟩
  · exact ⟨.u256, by decide, .u256, rfl, rfl⟩
  · exact ⟨.intFixed 1, by decide, .int 1, ⟨by decide, rfl⟩, rfl⟩
  · exact ⟨.intFixed 2, by decide, .int 2, ⟨by decide, rfl⟩, rfl⟩
  · exact ⟨.intFixed 4, by decide, .int 4, ⟨by decide, rfl⟩, rfl⟩
  · exact ⟨.intFixed 8, by decide, .int 8, ⟨by decide, rfl⟩, rfl⟩
  · exact ⟨.intFixed 16, by decide, .int 16, ⟨by decide, rfl⟩, rfl⟩
  · exact ⟨.intFixed 32, by decide, .int 32, ⟨by decide, rfl⟩, rfl⟩
  · exact ⟨.hash 20, by decide, .hash 20, rfl, rfl⟩
  · exact ⟨.hash 32, by decide, .hash 32, rfl, rfl⟩
  · exact ⟨.hash 64, by decide, .hash 64, rfl, rfl⟩
  · exact ⟨.u256, by decide, .u256, rfl, rfl⟩
  · exact ⟨.accountId, by decide, .account, rfl, rfl⟩
  · exact ⟨.bitVec, by decide, .bitVec, rfl, rfl⟩

theorem bytes_stands : Stands cfg A env .bytes [] (.bytes .bytes) := ⟨.bytes .bytes, ⟨by decide, rfl⟩, rfl⟩

theorem seq_stands {k : Nat} {s : Str} (hP : PlainNames cfg) (h : Text cfg A k s) : Stands cfg A env (.vec s) [] (.seq k) := by
  have e : vecElem (.vec s) [] = some s := by
    show some (if s = [] then [] else s) = some s
    rw [if_neg (text_clean hP h).ne_nil]
  exact ⟨.seq s, ⟨e, e⟩, s, rfl, spelled_text h⟩

theorem option_stands {k : Nat} {s : Str} (hP : PlainNames cfg) (h : Text cfg A k s) (hb : s ≠ b!"bool") :
    Stands cfg A env (.option s) [] (.option k) :=
  ⟨.option s, ⟨(text_clean hP h).ne_nil, hb, s, rfl, rfl, rfl⟩, s, rfl, spelled_text h⟩

theorem byteArray_stands {n : Nat} {s : Str} (hn : n ≠ 0) (h : toLower s = b!"u8") : Stands cfg A env (.fixedArray n s) [] (.byteArray n) :=
  ⟨.byteArray n, .inr ⟨Nat.pos_of_ne_zero hn, s, rfl, by rw [← toLower_eq_spec]; exact h⟩, rfl⟩

theorem array_stands {n k : Nat} {s : Str} (hs : Spelled cfg A k s) (h : toLower s ≠ b!"u8") :
    Stands cfg A env (.fixedArray n s) [] (.array n k) :=
  ⟨.array n s, ⟨rfl, by rw [← toLower_eq_spec]; exact h⟩, s, rfl, hs⟩

theorem compact_stands {s : Str} {sh : Shape Nat} (hw : WordsFor cfg A env sh) (h : (s, sh) ∈ compactShapes) (h32 : toLower s ≠ b!"u32") :
    Stands cfg A env (.compact s) [] sh := by
  simp only [compactShapes, List.mem_cons, Prod.mk.injEq, List.not_mem_nil, or_false] at h
  rcases h with ⟨rfl, rfl⟩ | ⟨rfl, rfl⟩ | ⟨rfl, rfl⟩ | ⟨rfl, rfl⟩ | ⟨rfl, rfl⟩ | ⟨rfl, rfl⟩
  · exact absurd (by decide) h32
  · obtain ⟨s, hs⟩ := (hw ⟨_, _, rfl⟩).1 b!"U64" (by decide)
    exact ⟨.compact (2 ^ 64) false, ⟨b!"U64", .u64, s, rfl, by decide, by simp [compactKinds], hs⟩, rfl⟩
  · obtain ⟨s, hs⟩ := (hw ⟨_, _, rfl⟩).2.1 b!"U128" (by decide)
    exact ⟨.compact (2 ^ 128) true, ⟨b!"U128", .u128, s, rfl, by decide, by simp [compactKinds], hs⟩, rfl⟩
  · exact absurd (by decide) h32
  · obtain ⟨s, hs⟩ := (hw ⟨_, _, rfl⟩).1 b!"u64" (by decide)
    exact ⟨.compact (2 ^ 64) false, ⟨b!"u64", .u64, s, rfl, by decide, by simp [compactKinds], hs⟩, rfl⟩
  · obtain ⟨s, hs⟩ := (hw ⟨_, _, rfl⟩).2.1 b!"u128" (by decide)
    exact ⟨.compact (2 ^ 128) true, ⟨b!"u128", .u128, s, rfl, by decide, by simp [compactKinds], hs⟩, rfl⟩

/-- The compact form of a wrapped number. -/
theorem wrapped_stands {k : Nat} {s t : Str} {w sh : Shape Nat} (hw : WordsFor cfg A env sh) (h : Text cfg A k s) (hk : Covered cfg A k w)
    (hs : (w, sh) ∈ wrappedShapes) (ht : t = s ∨ t = toLower s) (hne : t ≠ []) {a b : Str} (e : effSub a b = t) :
    Stands cfg A env (.compact a) b sh := by
  have hc : ∃ b d, sh = .compact b d := by
    simp only [wrappedShapes, List.mem_cons, Prod.mk.injEq, List.not_mem_nil, or_false] at hs
    rcases hs with ⟨_, rfl⟩ | ⟨_, rfl⟩ | ⟨_, rfl⟩ <;> exact ⟨_, _, rfl⟩
  obtain ⟨c, u, h1, sh', h2, h3⟩ := (hw hc).2.2 _ _ _ _ h hk hs t ht
  simp only [wrappedShapes, List.mem_cons, Prod.mk.injEq, List.not_mem_nil, or_false] at hs
  rcases hs with ⟨rfl, rfl⟩ | ⟨rfl, rfl⟩ | ⟨rfl, rfl⟩
  · subst h3
    exact ⟨.compact (2 ^ 32) false, ⟨a, c, u, rfl, by rw [e]; exact hne, by rw [h2.2]; simp [compactKinds, uintClass], by rw [e]; exact h1⟩, rfl⟩
  · subst h3
    exact ⟨.compact (2 ^ 64) false, ⟨a, c, u, rfl, by rw [e]; exact hne, by rw [h2.2]; simp [compactKinds, uintClass], by rw [e]; exact h1⟩, rfl⟩
  · subst h3
    exact ⟨.compact (2 ^ 128) true, ⟨a, c, u, rfl, by rw [e]; exact hne, by rw [show c = .u128 from h2]; simp [compactKinds], by rw [e]; exact h1⟩, rfl⟩

theorem lower_tuple (s : Str) : toLower (b!"Tuple:" ++ s) = b!"tuple:" ++ toLower s := toLower_append _ _

/-- The text of a number: a name of the table at the start or the name of a portable type. -/
theorem wrapped_free (hT : Tidy cfg A base) (hS : Stock base) {s : Str} {w sh : Shape Nat} (h : View cfg A s w) (hs : (w, sh) ∈ wrappedShapes)
    (h32 : w = .uint 4 → toLower s ≠ b!"u32") : base (toLower (generic b!"compact" s)) = none := by
  rw [lower_generic]
  simp only [wrappedShapes, List.mem_cons, Prod.mk.injEq, List.not_mem_nil, or_false] at hs
  cases h with
  | stock h =>
    simp only [stockShapes, primitiveShapes, crateShapes, List.cons_append, List.nil_append, List.mem_cons, Prod.mk.injEq,
      List.not_mem_nil, or_false] at h
    rcases hs with ⟨rfl, rfl⟩ | ⟨rfl, rfl⟩ | ⟨rfl, rfl⟩ <;> simp at h
    · rcases h with rfl | rfl <;> exact absurd (by decide) (h32 rfl)
    · rcases h with rfl | rfl <;> exact hS.compact.1
    · rcases h with rfl | rfl <;> exact hS.compact.2
  | own _ _ _ _ h => cases h <;> simp at hs
  | renamed _ _ _ _ h hne _ _ => 
    have hf := hT.fresh _ _ h hne
    cases e : base (generic (toLower b!"compact") (toLower s)) with
    | none => rfl
    | some c =>
      rcases hS.compacts _ _ e with e | e
      · rw [e, hS.entry (b!"u32", .u32) (by decide +kernel)] at hf; cases hf
      · rw [e] at hf; exact absurd hf hS.moment
  | compact h =>
    simp only [compactShapes, List.mem_cons, Prod.mk.injEq, List.not_mem_nil, or_false] at h
    rcases hs with ⟨rfl, rfl⟩ | ⟨rfl, rfl⟩ | ⟨rfl, rfl⟩ <;> simp at h
  | wrapped _ _ h =>
    simp only [wrappedShapes, List.mem_cons, Prod.mk.injEq, List.not_mem_nil, or_false] at h
    rcases hs with ⟨rfl, rfl⟩ | ⟨rfl, rfl⟩ | ⟨rfl, rfl⟩ <;> simp at h
  | _ => simp at hs

/-- The text of a covered number reads as the number. -/
theorem wrapped_view (hT : Tidy cfg A base) {k : Nat} {s : Str} {w sh : Shape Nat} (ht : Text cfg A k s) (hk : Covered cfg A k w)
    (hs : (w, sh) ∈ wrappedShapes) : View cfg A s w := by
  refine view hk hT.names ht ?_
  rintro rfl
  simp [wrappedShapes] at hs

/-- Entries of the table at the start. -/
theorem base_stands (hT : Tidy cfg A base) (hS : Stock base) {t : Str} {sh : Shape Nat} {c : Cls} (h : View cfg A t sh)
    (hb : base (toLower t) = some c) : Stands cfg A env c [] sh := by
  cases h with
  | stock h =>
    obtain ⟨c', h1, h2⟩ := stock_stands (cfg := cfg) (A := A) (env := env) h
    have := hS.entry _ h1
    rw [hb] at this
    cases this
    exact h2
  | own _ _ h hne _ => rw [hT.fresh _ _ h hne] at hb; cases hb
  | renamed _ _ _ _ h hne _ _ => rw [hT.fresh _ _ h hne] at hb; cases hb
  | @bytes p h =>
    rw [lower_generic, show generic (toLower b!"Vec") (toLower p) = b!"vec<" ++ (toLower p ++ [62]) from rfl, hS.vec] at hb
    cases hb
  | @seq k s h h1 =>
    rw [lower_generic, show generic (toLower b!"Vec") (toLower s) = b!"vec<" ++ (toLower s ++ [62]) from rfl, hS.vec] at hb
    cases hb
  | byteArray h0 h1 h2 =>
    rw [lower_arrayText] at hb
    rcases hS.array _ _ _ hb with rfl | ⟨_, rfl⟩
    · exact byteArray_stands h1 (by rw [toLower_idem]; exact byte_lower h0)
    · exact ⟨.byteArray _, .inl rfl, rfl⟩
  | @array n k s h1 h2 h3 h4 h5 =>
    rw [lower_arrayText] at hb
    rcases hS.array _ _ _ hb with rfl | ⟨h6, _⟩
    · exact array_stands ⟨s, h4, .inr (.inr ⟨h3, rfl⟩)⟩ (by rw [toLower_idem]; exact h5)
    · exact absurd h6 h5
  | compact h =>
    simp only [compactShapes, List.mem_cons, Prod.mk.injEq, List.not_mem_nil, or_false] at h
    have h32 : base b!"compact<u32>" = some c → Stands cfg A env c [] .compact32 := by
      intro hb
      have := hS.entry (b!"compact<u32>", .compactU32) (by simp [stockClasses])
      rw [hb] at this
      cases this
      exact ⟨.compact32, rfl, rfl⟩
    rcases h with ⟨rfl, rfl⟩ | ⟨rfl, rfl⟩ | ⟨rfl, rfl⟩ | ⟨rfl, rfl⟩ | ⟨rfl, rfl⟩ | ⟨rfl, rfl⟩
    · exact h32 hb
    · rw [show toLower (generic b!"compact" b!"U64") = b!"compact<u64>" by decide, hS.compact.1] at hb; cases hb
    · rw [show toLower (generic b!"compact" b!"U128") = b!"compact<u128>" by decide, hS.compact.2] at hb; cases hb
    · exact h32 hb
    · rw [show toLower (generic b!"compact" b!"u64") = b!"compact<u64>" by decide, hS.compact.1] at hb; cases hb
    · rw [show toLower (generic b!"compact" b!"u128") = b!"compact<u128>" by decide, hS.compact.2] at hb; cases hb
  | wrapped h1 h2 h3 h4 => rw [wrapped_free hT hS (wrapped_view hT h1 h2 h3) h3 h4] at hb; cases hb
  | tuple h1 h2 h3 h4 h5 => rw [lower_tuple, hT.freshTuples _ _ _ h2 h3 h5] at hb; cases hb
  | @option k s h h1 =>
    rw [lower_generic, show generic (toLower b!"option") (toLower s) = b!"option<" ++ (toLower s ++ [62]) from rfl, hS.option] at hb
    cases hb
  | @result k k' s s' h h' h1 h2 =>
    rw [lower_generic, show generic (toLower b!"Result") (toLower (s ++ b!"," ++ s')) = b!"result<" ++ (toLower (s ++ b!"," ++ s') ++ [62]) from rfl,
      hS.result] at hb
    cases hb

/-- Classes read off the form of a text. -/
theorem form_stands (hT : Tidy cfg A base) (hS : Stock base) {t : Str} {sh : Shape Nat} {c : Cls} (hw : WordsFor cfg A env sh) (h : View cfg A t sh)
    (hb : base (toLower t) = none) (ha : aliasClass t = .ok (some c)) (hv : t ≠ b!"Vec<U8>" ∧ t ≠ b!"Vec<u8>") : Stands cfg A env c [] sh := by
  cases h with
  | stock h =>
    obtain ⟨c', h1, h2⟩ := stock_stands (cfg := cfg) (A := A) (env := env) h
    have := hS.entry _ h1
    rw [hb] at this
    cases this
  | own _ _ h hne _ =>
    have hp := name_plain hT.names h
    rw [alias_name ((name_clean hT.names h).resolve_left hne) (fun h => (hp _ h).1 rfl) (fun h => (hp _ h).2.1 rfl)] at ha
    cases ha
  | renamed _ _ _ _ h hne _ _ =>
    have hp := name_plain hT.names h
    rw [alias_name ((name_clean hT.names h).resolve_left hne) (fun h => (hp _ h).1 rfl) (fun h => (hp _ h).2.1 rfl)] at ha
    cases ha
  | bytes h =>
    simp only [byteNames, List.mem_cons, List.not_mem_nil, or_false] at h
    rcases h with rfl | rfl
    · exact absurd rfl hv.1
    · exact absurd rfl hv.2
  | seq h h1 =>
    rw [alias_vec (text_clean hT.names h)] at ha
    cases ha
    exact seq_stands hT.names h
  | byteArray h0 h1 h2 =>
    rw [alias_array (byte_clean h0) ((by decide : ∀ p ∈ byteNames, (59 : UInt8) ∉ p) _ h0) h2] at ha
    cases ha
    exact byteArray_stands h1 (byte_lower h0)
  | @array n k s h1 h2 h3 h4 h5 =>
    by_cases h6 : (59 : UInt8) ∈ s
    · rw [alias_semicolon h6] at ha
      cases ha
    · rw [alias_array (text_clean hT.names h4) h6 h2] at ha
      cases ha
      exact array_stands (spelled_text h4) h5
  | compact h =>
    rw [alias_compact (compact_clean _ h)] at ha
    cases ha
    refine compact_stands hw h ?_
    intro e
    have := hS.entry (b!"compact<u32>", .compactU32) (by simp [stockClasses])
    rw [lower_generic, e, show generic (toLower b!"compact") b!"u32" = b!"compact<u32>" by decide] at hb
    rw [hb] at this
    cases this
  | wrapped h1 h2 h3 _ =>
    rw [alias_compact (text_clean hT.names h1)] at ha
    cases ha
    exact wrapped_stands hw h1 h2 h3 (.inl rfl) (text_clean hT.names h1).ne_nil (by simp [effSub])
  | tuple => rw [alias_tuple] at ha; cases ha
  | option h h1 =>
    rw [alias_option (text_clean hT.names h)] at ha
    cases ha
    exact option_stands hT.names h h1
  | result => rw [alias_result] at ha; cases ha

/-! ## Definitions -/

theorem angle_generic (w s : Str) : (60 : UInt8) ∈ toLower (generic w s) := by
  rw [lower_generic]; simp [generic]

theorem bracket_array (s : Str) (n : Nat) : (91 : UInt8) ∈ toLower (arrayText s 1 n) := by
  rw [lower_arrayText]; simp [arrayText]

theorem stock_base (hS : Stock base) {t : Str} {sh : Shape Nat} (h : (t, sh) ∈ stockShapes) : base (toLower t) ≠ none := by
  obtain ⟨⟨k, c⟩, h1, h2⟩ := List.mem_map.1 ((by decide +kernel : ∀ t ∈ stockNames, toLower t ∈ stockClasses.map Prod.fst) t (stock_name h))
  rw [← h2, hS.entry _ h1]
  simp

/-- A text that is the name of a portable type, up to letter case. -/
theorem view_name (hT : Tidy cfg A base) (hS : Stock base) {t m : Str} {j : Nat} {sh : Shape Nat} (h : View cfg A t sh)
    (hm : nameSiType cfg (cfg.types j) (some j) = .ok m) (e : toLower m = toLower t) :
    Late cfg A j ∧ IsOwn (cfg.types j) ∧ OwnShape cfg A j sh ∨
    ∃ f, Late cfg A j ∧ IsNewtype (cfg.types j) ∧ (cfg.types j).typ = .composite [f] ∧ f.type ≠ j ∧ Aliased cfg A sh ∧ Covered cfg A f.type sh := by
  have hne : m ≠ [] := by
    rintro rfl
    have := (view_clean hT.names h).ne_nil
    cases t with
    | nil => exact this rfl
    | cons c t => cases e
  have h60 : (60 : UInt8) ∉ toLower t := by
    rw [← e]
    exact fun h => (name_plain hT.names hm 60 (mem_lower h (by decide))).1 rfl
  have h91 : (91 : UInt8) ∉ toLower t := by
    rw [← e]
    exact fun h => (name_plain hT.names hm 91 (mem_lower h (by decide))).2.1 rfl
  cases h with
  | stock h => exact absurd (e ▸ hT.fresh _ _ hm hne) (stock_base hS h)
  | own h1 h2 h3 h4 h5 =>
    have := (hT.apart _ _ h3 h4).names _ _ hm e
    subst this
    exact .inl ⟨h1, h2, h5⟩
  | renamed h1 h2 h3 h4 h5 h6 h7 h8 =>
    have := (hT.apart _ _ h5 h6).names _ _ hm e
    subst this
    exact .inr ⟨_, h1, h2, h3, h4, h7, h8⟩
  | bytes _ => exact absurd (angle_generic _ _) h60
  | seq h h1 => exact absurd (angle_generic _ _) h60
  | byteArray _ _ _ => exact absurd (bracket_array _ _) h91
  | array h1 h2 h3 h4 h5 => exact absurd (bracket_array _ _) h91
  | compact h => exact absurd (angle_generic _ _) h60
  | wrapped => exact absurd (angle_generic _ _) h60
  | tuple =>
    refine absurd ?_ (hT.apart _ _ hm hne).tuple
    rw [e, lower_tuple]
    exact List.prefix_append _ _
  | option h h1 => exact absurd (angle_generic _ _) h60
  | result => exact absurd (angle_generic _ _) h60

/-- A text that is the key of a tuple. -/
theorem view_tuple (hT : Tidy cfg A base) {t u : Str} {sh : Shape Nat} (h : View cfg A t sh)
    (e : toLower t = b!"tuple:" ++ u) : ∃ i ks ts, (cfg.types i).typ = .tuple ks ∧ Texts cfg A ks ts ∧ toLower ts.flatten = u ∧
      sh = .struct (numbered 1 ks) := by
  cases h with
  | stock h =>
    refine absurd ?_ ((by decide +kernel : ∀ t ∈ stockNames, ¬ b!"tuple:" <+: toLower t) _ (stock_name h))
    rw [e]; exact List.prefix_append _ _
  | own h1 h2 h3 h4 h5 =>
    refine absurd ?_ (hT.apart _ _ h3 h4).tuple
    rw [e]; exact List.prefix_append _ _
  | renamed h1 h2 h3 h4 h5 h6 h7 h8 =>
    refine absurd ?_ (hT.apart _ _ h5 h6).tuple
    rw [e]; exact List.prefix_append _ _
  | bytes _ => exact absurd (List.cons.inj e).1 (by decide)
  | seq h h1 => exact absurd (List.cons.inj e).1 (by decide)
  | byteArray _ _ _ => exact absurd (List.cons.inj e).1 (by decide)
  | array h1 h2 h3 h4 h5 => exact absurd (List.cons.inj e).1 (by decide)
  | compact h => exact absurd (List.cons.inj e).1 (by decide)
  | wrapped => exact absurd (List.cons.inj e).1 (by decide)
  | tuple h1 h2 h3 h4 h5 =>
    rw [lower_tuple] at e
    exact ⟨_, _, _, h2, h5, List.append_cancel_left e, rfl⟩
  | option h h1 => exact absurd (List.cons.inj e).1 (by decide)
  | result => exact absurd (List.cons.inj e).1 (by decide)

/-- No text is one of the other keys. -/
theorem view_other (hT : Tidy cfg A base) {t : Str} {sh : Shape Nat} (h : View cfg A t sh) :
    ¬ b!"primitive_types:" <+: toLower t ∧ toLower t ≠ b!"extrinsicsignature" ∧ toLower t ≠ b!"extrinsicsigner" := by
  have hd : ∀ {u : Str} {c : UInt8}, u.head? = some c → c ∉ b!"pe" →
      ¬ b!"primitive_types:" <+: u ∧ u ≠ b!"extrinsicsignature" ∧ u ≠ b!"extrinsicsigner" := by
    intro u c hu hc
    refine ⟨?_, ?_, ?_⟩
    · rintro ⟨r, rfl⟩
      cases hu
      exact hc (by decide)
    · rintro rfl
      cases hu
      exact hc (by decide)
    · rintro rfl
      cases hu
      exact hc (by decide)
  cases h with
  | stock h =>
    exact (by decide +kernel : ∀ t ∈ stockNames, ¬ b!"primitive_types:" <+: toLower t ∧ toLower t ≠ b!"extrinsicsignature" ∧
      toLower t ≠ b!"extrinsicsigner") t (stock_name h)
  | own h1 h2 h3 h4 h5 =>
    have := hT.apart _ _ h3 h4
    exact ⟨this.primitive, this.signature, this.signer⟩
  | renamed h1 h2 h3 h4 h5 h6 h7 h8 =>
    have := hT.apart _ _ h5 h6
    exact ⟨this.primitive, this.signature, this.signer⟩
  | bytes _ => exact hd (c := 118) rfl (by decide)
  | seq h h1 => exact hd (c := 118) rfl (by decide)
  | byteArray _ _ _ => exact hd (c := 91) rfl (by decide)
  | array h1 h2 h3 h4 h5 => exact hd (c := 91) rfl (by decide)
  | compact h => exact hd (c := 99) rfl (by decide)
  | wrapped => exact hd (c := 99) rfl (by decide)
  | tuple h1 h2 h3 h4 h5 => exact hd (c := 116) rfl (by decide)
  | option h h1 => exact hd (c := 111) rfl (by decide)
  | result => exact hd (c := 114) rfl (by decide)

/-- The keys of definitions are not in the table at the start. -/
theorem def_fresh (hT : Tidy cfg A base) {k : Str} {c : Cls} (h : Def cfg A base k c) :
    k = [] ∨ base k = none ∨ b!"primitive_types:" <+: k ∨ k = b!"extrinsicsignature" ∨ k = b!"extrinsicsigner" := by
  have nm : ∀ {i n}, nameSiType cfg (cfg.types i) (some i) = .ok n → toLower n = [] ∨ base (toLower n) = none := by
    intro i n h
    by_cases hn : n = []
    · subst hn; exact .inl rfl
    · exact .inr (hT.fresh _ _ h hn)
  have al : ∀ {key s}, Alias cfg A key s → toLower key = [] ∨ base (toLower key) = none ∨ b!"primitive_types:" <+: toLower key ∨
      toLower key = b!"extrinsicsignature" ∨ toLower key = b!"extrinsicsigner" := by
    intro key s h
    cases h with
    | newtype _ _ h _ => exact (nm h).imp id .inl
    | primitive _ => exact .inr (.inr (.inl (by rw [toLower_append]; exact List.prefix_append _ _)))
    | signature _ => exact .inr (.inr (.inr (.inl (by decide))))
    | signer _ => exact .inr (.inr (.inr (.inr (by decide))))
    | runtimeCall _ _ h => exact (nm h).imp id .inl
  cases h with
  | struct _ _ _ h _ => exact (nm h).imp id .inl
  | enum _ _ h _ _ => exact (nm h).imp id .inl
  | tuple h1 h2 h3 => exact .inr (.inl (by rw [lower_tuple]; exact hT.freshTuples _ _ _ h1 h2 h3))
  | aliasBase h _ _ => exact al h
  | aliasDef h _ _ => exact al h
  | aliasForm h _ _ => exact al h

/-- Entries found for a text or its converted form. -/
theorem def_stands (hT : Tidy cfg A base) (hS : Stock base) (hj : ReadsRows env.ext) {k : Str} {c : Cls} (h : Def cfg A base k c) :
    ∀ t sh, WordsFor cfg A env sh → View cfg A t sh → k = toLower t → Stands cfg A env c [] sh := by
  have hkey : ∀ {k t sh}, View cfg A t sh → (k = toLower (convertType t) ∨ k = toLower t) → k = toLower t ∨ k = b!"bytes" ∧ sh = .bytes .bytes := by
    intro k t sh hv hk
    rcases hk with hk | hk
    · rcases view_convert hT.names hv with ⟨rfl | rfl, hsh⟩ | e
      · exact .inr ⟨hk.trans (by kernel_rfl), hsh⟩
      · exact .inr ⟨hk.trans (by kernel_rfl), hsh⟩
      · rw [e] at hk; exact .inl hk
    · exact .inl hk
  have hal : ∀ {key s t sh}, Alias cfg A key s → View cfg A t sh → toLower key = toLower t → View cfg A s sh := by
    intro key s t sh ha hv e
    cases ha with
    | newtype h1 h2 h3 h4 =>
      rcases view_name hT hS hv h3 e with ⟨_, h5, _⟩ | ⟨f, h5, h6, h7, h8, h9, h10⟩
      · exact absurd h5 (newtype_not_own h2)
      · rw [h1] at h7
        cases h7
        rcases h4 with h4 | ⟨h4, _⟩
        · exact view h10 hT.names h4 h9.ne_null
        · exact absurd h4 h8
    | primitive h =>
      refine absurd ?_ (view_other hT hv).1
      rw [← e, toLower_append]
      exact List.prefix_append _ _
    | signature _ => exact absurd (e.symm.trans (by decide)) (view_other hT hv).2.1
    | signer _ => exact absurd (e.symm.trans (by decide)) (view_other hT hv).2.2
    | runtimeCall h1 h2 h3 =>
      rcases view_name hT hS hv h3 e with ⟨_, h5, _⟩ | ⟨f, _, _, h7, _⟩
      · rcases h5 with ⟨fs, h', _⟩ | ⟨vs, p, ps, h', _, _, _, hc⟩
        · rw [h1] at h'; cases h'
        · exact absurd (.inr (.inr h2)) hc
      · rw [h1] at h7; cases h7
  induction h with
  | struct h1 h2 h3 h4 h5 =>
    intro t sh hw hv e
    rcases view_name hT hS hv h4 e with ⟨_, h6, h7⟩ | ⟨f, _, _, h6, _⟩
    · exact own_stands hT.names hj (.struct h1 h5) h7
    · rw [h1] at h6; cases h6; simp at h2
  | enum h1 h2 h3 h4 h5 =>
    intro t sh hw hv e
    rcases view_name hT hS hv h3 e with ⟨_, h6, h7⟩ | ⟨f, _, _, h6, _⟩
    · exact own_stands hT.names hj (.enum h1 h4 h5) h7
    · rw [h1] at h6; cases h6
  | @tuple i ks us h1 h2 h3 =>
    intro t sh hw hv e
    rw [lower_tuple] at e
    obtain ⟨j, ls, ts, h4, h5, h6, rfl⟩ := view_tuple hT hv e.symm
    have := hT.tuples _ _ _ _ _ _ h1 h4 h3 h5 h6.symm
    subst this
    exact ⟨_, struct_is, _, rfl, numbered_like 1 _ _ (spelled_texts h3)⟩
  | aliasBase h1 h2 h3 =>
    intro t sh hw hv e
    have hs := hal h1 hv e
    rcases hkey hs h2 with rfl | ⟨rfl, rfl⟩
    · exact base_stands hT hS hs h3
    · have := hS.entry (b!"bytes", .bytes) (by simp [stockClasses])
      rw [h3] at this
      cases this
      exact bytes_stands
  | @aliasDef key s k' c' h1 h2 h3 ih =>
    intro t sh hw hv e
    have hs := hal h1 hv e
    rcases hkey hs h2 with h4 | ⟨rfl, rfl⟩
    · exact ih _ _ hw hs h4
    · exfalso
      have := hS.entry (b!"bytes", .bytes) (by simp [stockClasses])
      rcases def_fresh hT h3 with h | h | h | h | h
      · cases h
      · rw [this] at h; cases h
      · exact absurd h (by decide)
      · cases h
      · cases h
  | aliasForm h1 h2 h3 =>
    intro t sh hw hv e
    have hs := hal h1 hv e
    rcases view_convert hT.names hs with ⟨rfl | rfl, _⟩ | e'
    · have := hS.entry (b!"bytes", .bytes) (by simp [stockClasses])
      rw [show toLower (convertType b!"Vec<U8>") = b!"bytes" by kernel_rfl, this] at h2
      cases h2
    · have := hS.entry (b!"bytes", .bytes) (by simp [stockClasses])
      rw [show toLower (convertType b!"Vec<u8>") = b!"bytes" by kernel_rfl, this] at h2
      cases h2
    · rw [e'] at h2 h3
      refine form_stands hT hS hw hs h2 h3 ⟨?_, ?_⟩ <;>
      · rintro rfl
        exact absurd e' (by decide +kernel)

/-- Every entry under a text stands for its shape. -/
theorem entry_stands (hT : Tidy cfg A base) (hS : Stock base) {env : Env}
    (hj : ReadsRows env.ext) {t : Str} {sh : Shape Nat} {c : Cls} (hw : WordsFor cfg A env sh) (hv : View cfg A t sh)
    (hc : base (toLower t) = some c ∨ Def cfg A base (toLower t) c) : Stands cfg A env c [] sh := by
  rcases hc with h | h
  · exact base_stands hT hS hv h
  · exact def_stands hT hS hj h _ _ hw hv rfl

/-- Keys of entries at the start that are never replaced. -/
def Lasting (k : Str) : Prop :=
  k ≠ [] ∧ ¬ b!"primitive_types:" <+: k ∧ k ≠ b!"extrinsicsignature" ∧ k ≠ b!"extrinsicsigner" ∧ k ≠ b!"origincaller"

instance (k : Str) : Decidable (Lasting k) := by unfold Lasting; infer_instance

/-- The entries at the start are kept. -/
theorem entry_lasts (hT : Tidy cfg A base) {st : SiState} (hs : EnvSound cfg A base st) {k : Str} {c : Cls}
    (h0 : base k = some c) (hk : Lasting k) : st.reg.env.reg k = some c := by
  obtain ⟨k1, k2, k3, k4, _⟩ := hk
  cases hc : st.reg.env.reg k with
  | none => rw [hs.keeps _ hc] at h0; cases h0
  | some c' =>
    rcases hs.entry _ _ hc with h | h
    · rw [h] at h0; exact h0
    · rcases def_fresh hT h with h | h | h | h | h
      · exact absurd h k1
      · rw [h] at h0; cases h0
      · exact absurd h k2
      · exact absurd h k3
      · exact absurd h k4

/-- See `entry_lasts`. -/
theorem entry_kept (hT : Tidy cfg A base) (hS : Stock base) {st : SiState} (hs : EnvSound cfg A base st) {k : Str} {c : Cls}
    (hb : (k, c) ∈ stockClasses) : st.reg.env.reg k = some c :=
  entry_lasts hT hs (hS.entry _ hb) ((by decide +kernel : ∀ p ∈ stockClasses, Lasting p.1) _ hb)

/-- No entry is made for a text with arguments or for an array, except for tuples and primitive types. -/
theorem entry_generic (hT : Tidy cfg A base) {st : SiState} (hs : EnvSound cfg A base st) {k : Str} (h60 : (60 : UInt8) ∈ k ∨ (91 : UInt8) ∈ k)
    (ht : ¬ b!"tuple:" <+: k) (hp : ¬ b!"primitive_types:" <+: k) : st.reg.env.reg k = base k := by
  cases hc : st.reg.env.reg k with
  | none => exact (hs.keeps _ hc).symm
  | some c =>
    have nm : ∀ {i n}, nameSiType cfg (cfg.types i) (some i) = .ok n → k ≠ toLower n := by
      intro i n h e
      rw [e] at h60
      rcases h60 with h60 | h60
      · exact (name_plain hT.names h 60 (mem_lower h60 (by decide))).1 rfl
      · exact (name_plain hT.names h 91 (mem_lower h60 (by decide))).2.1 rfl
    have al : ∀ {key u}, Alias cfg A key u → k ≠ toLower key := by
      intro key u h e
      cases h with
      | newtype _ _ h _ => exact nm h e
      | primitive _ => rw [toLower_append] at e; exact hp (e ▸ List.prefix_append _ _)
      | signature _ => rw [e] at h60; exact absurd h60 (by decide)
      | signer _ => rw [e] at h60; exact absurd h60 (by decide)
      | runtimeCall _ _ h => exact nm h e
    rcases hs.entry _ _ hc with h | h
    · exact h.symm
    · exfalso
      generalize hk : k = k' at h
      cases h with
      | struct _ _ _ h _ => exact nm h hk
      | enum _ _ h _ _ => exact nm h hk
      | tuple => rw [lower_tuple] at hk; exact ht (hk ▸ List.prefix_append _ _)
      | aliasBase h _ _ => exact al h hk
      | aliasDef h _ _ => exact al h hk
      | aliasForm h _ _ => exact al h hk

/-- No entry is made for a list. -/
theorem entry_vec (hT : Tidy cfg A base) (hS : Stock base) {st : SiState} (hs : EnvSound cfg A base st) (s : Str) :
    st.reg.env.reg (b!"vec<" ++ s) = none := by
  rw [entry_generic hT hs (.inl (by simp)) (fun ⟨r, h⟩ => absurd (List.cons.inj h).1 (by decide)) fun ⟨r, h⟩ => absurd (List.cons.inj h).1 (by decide)]
  exact hS.vec s

end

end ScaleGo
