import Mathlib.Data.List.Nodup
import Verif.Model.Metadata
import Verif.Lemmas.Dec
import Verif.Lemmas.SpecBytes

/-! # C37: call and event index keys -/

namespace ScaleGo

namespace Spec

/-- In metadata of version 12 or 13: `e` is the call at position `c` of the module with index `m`. -/
def CallAt12 (ms : List MetaModule) (m c : Nat) (e : CallEntry) : Prop :=
  ∃ mod ∈ ms, mod.index = m ∧ ∃ l call, mod.calls = some l ∧ l[c]? = some call ∧ e = ⟨call.name, mod.name, call.args⟩

/-- In metadata of version 12 or 13: `e` is the event at position `c` of the module with index `m`. -/
def EventAt12 (ms : List MetaModule) (m c : Nat) (e : EventEntry) : Prop :=
  ∃ mod ∈ ms, mod.index = m ∧ ∃ l ev, mod.events = some l ∧ l[c]? = some ev ∧
    e = ⟨ev.name, mod.name, ev.args, ev.argsName, ev.argsTypeName⟩

/-- In metadata of version 14 or 15: `e` is the call with index `c` of the module with index `m`. -/
def CallAt14 (ms : List MetaModule) (m c : Nat) (e : CallEntry) : Prop :=
  ∃ mod ∈ ms, mod.index = m ∧ ∃ l, mod.calls = some l ∧ ∃ call ∈ l, call.lookupIndex = c ∧ e = ⟨call.name, mod.name, call.args⟩

/-- In metadata of version 14 or 15: `e` is the event with index `c` of the module with index `m`. -/
def EventAt14 (ms : List MetaModule) (m c : Nat) (e : EventEntry) : Prop :=
  ∃ mod ∈ ms, mod.index = m ∧ ∃ l, mod.events = some l ∧ ∃ ev ∈ l, ev.lookupIndex = c ∧
    e = ⟨ev.name, mod.name, ev.args, ev.argsName, ev.argsTypeName⟩

/-- In metadata of version 9 to 11: `e` is the call at position `c` of the module that `m` modules with calls precede. -/
def CallAt11 (ms : List MetaModule) (m c : Nat) (e : CallEntry) : Prop :=
  ∃ before mod after, ms = before ++ mod :: after ∧ before.countP (fun x => x.calls.isSome) = m ∧
    ∃ l call, mod.calls = some l ∧ l[c]? = some call ∧ e = ⟨call.name, mod.name, call.args⟩

/-- In metadata of version 9 to 11: `e` is the event at position `c` of the module that `m` modules with events precede. -/
def EventAt11 (ms : List MetaModule) (m c : Nat) (e : EventEntry) : Prop :=
  ∃ before mod after, ms = before ++ mod :: after ∧ before.countP (fun x => x.events.isSome) = m ∧
    ∃ l ev, mod.events = some l ∧ l[c]? = some ev ∧ e = ⟨ev.name, mod.name, ev.args, ev.argsName, ev.argsTypeName⟩

end Spec

open ScaleGo.Spec

/-! ## The key -/

theorem intToHex_nat (n : Nat) : intToHex (n : Int) = natToHex n := by
  unfold intToHex
  rw [if_neg (by omega)]
  rfl

theorem pad_small {n : Nat} (h : n < 256) : rightJustify0 (intToHex (n : Int)) 2 = bytesToHex [UInt8.ofNat n] := by
  rw [intToHex_nat, rightJustify_natToHex n 1 (by omega)]
  have := hexFix_bytes 1 n
  rw [show 2 * 1 = 1 + 1 by rfl] at this
  rw [this]
  simp only [lePut, List.reverse_cons, List.reverse_nil, List.nil_append]
  rw [Nat.mod_eq_of_lt h]

theorem hexAux_pos {f n : Nat} (hf : 0 < f) : 1 ≤ (hexAux f n []).length := by
  obtain ⟨f, rfl⟩ : ∃ g, f = g + 1 := ⟨f - 1, by omega⟩
  rw [hexAux]
  split
  · simp
  · rw [hexAux_eq_append]; simp

theorem natToHex_long {n : Nat} (h : 256 ≤ n) : 3 ≤ (natToHex n).length := by
  unfold natToHex
  obtain ⟨f, rfl⟩ : ∃ g, n = g + 1 + 1 := ⟨n - 2, by omega⟩
  rw [hexAux, if_neg (by omega), hexAux_eq_append, hexAux, if_neg (by omega), hexAux_eq_append]
  have := hexAux_pos (f := f + 1) (n := (f + 1 + 1) / 16 / 16) (by omega)
  simp only [List.length_append, List.length_cons, List.length_nil]
  omega

theorem pad_length (n : Nat) : 2 ≤ (rightJustify0 (intToHex (n : Int)) 2).length ∧
    (256 ≤ n → 3 ≤ (rightJustify0 (intToHex (n : Int)) 2).length) := by
  rw [intToHex_nat]
  unfold rightJustify0
  simp only [List.length_append, List.length_replicate]
  refine ⟨by omega, fun h => ?_⟩
  have := natToHex_long h
  omega

theorem ofNat_toNat_inj {n : Nat} {a : UInt8} (h : n < 256) (e : UInt8.ofNat n = a) : n = a.toNat := by
  rw [← e, UInt8.toNat_ofNat_of_lt' h]

theorem indexKey_iff (m c : Nat) (a b : UInt8) : indexKey m c = bytesToHex [a, b] ↔ m = a.toNat ∧ c = b.toNat := by
  have hm := pad_length m
  have hc := pad_length c
  constructor
  · intro h
    have hl := congrArg List.length h
    rw [indexKey, List.length_append, bytesToHex_length] at hl
    simp only [List.length_cons, List.length_nil] at hl
    have h1 : m < 256 := by
      by_contra hh
      have := hm.2 (by omega)
      omega
    have h2 : c < 256 := by
      by_contra hh
      have := hc.2 (by omega)
      omega
    rw [indexKey, pad_small h1, pad_small h2, ← bytesToHex_append] at h
    have := bytesToHex_injective h
    simp only [List.cons_append, List.nil_append, List.cons.injEq, and_true] at this
    exact ⟨ofNat_toNat_inj h1 this.1, ofNat_toNat_inj h2 this.2⟩
  · rintro ⟨rfl, rfl⟩
    rw [indexKey, pad_small a.toNat_lt, pad_small b.toNat_lt, ← bytesToHex_append]
    simp

/-- The key of a pair of indices below 256 is the hex text of the two bytes. -/
theorem C37_key (m c : UInt8) : indexKey m.toNat c.toNat = _root_.Spec.hexText [m, c] := by
  rw [← bytesToHex_eq_spec, indexKey_iff]
  exact ⟨rfl, rfl⟩

/-- Different pairs of indices below 256 have different keys, also against pairs with a larger index. -/
theorem C37_injective (m c : UInt8) (m' c' : Nat) (h : indexKey m.toNat c.toNat = indexKey m' c') : m' = m.toNat ∧ c' = c.toNat := by
  rw [(indexKey_iff m.toNat c.toNat m c).2 ⟨rfl, rfl⟩] at h
  exact (indexKey_iff m' c' m c).1 h.symm

/-! ## The tables -/

theorem putByPosition_get {α β : Type} (entry : α → β) (mi : Nat) (a b : UInt8) (xs : List α) : ∀ (i : Nat) (m : Index β),
    putByPosition entry mi i xs m (bytesToHex [a, b]) =
      (if mi = a.toNat ∧ i ≤ b.toNat then (xs[b.toNat - i]?).map entry else none).or (m (bytesToHex [a, b])) := by
  induction xs with
  | nil => intro i m; simp [putByPosition]
  | cons x xs ih =>
    intro i m
    rw [putByPosition, ih]
    by_cases hm : mi = a.toNat
    · by_cases hi : i + 1 ≤ b.toNat
      · rw [if_pos ⟨hm, hi⟩, if_pos ⟨hm, by omega⟩, show b.toNat - i = (b.toNat - (i + 1)) + 1 by omega, List.getElem?_cons_succ,
          Index.put, if_neg]
        intro h
        have := (indexKey_iff mi i a b).1 h.symm
        omega
      · rw [if_neg (by omega), Option.none_or]
        by_cases he : i = b.toNat
        · rw [Index.put, if_pos ((indexKey_iff mi i a b).2 ⟨hm, he⟩).symm, if_pos ⟨hm, by omega⟩, he, Nat.sub_self]
          rfl
        · rw [if_neg (by omega), Option.none_or, Index.put, if_neg]
          intro h
          exact he ((indexKey_iff mi i a b).1 h.symm).2
    · rw [if_neg (fun h => hm h.1), if_neg (fun h => hm h.1), Option.none_or, Option.none_or, Index.put, if_neg]
      intro h
      exact hm ((indexKey_iff mi i a b).1 h.symm).1

theorem putByIndex_get {α β : Type} (entry : α → β) (idx : α → Nat) (mi : Nat) (a b : UInt8) (xs : List α) : ∀ (m : Index β),
    (xs.map idx).Nodup → putByIndex entry idx mi xs m (bytesToHex [a, b]) =
      (if mi = a.toNat then (xs.find? (fun x => idx x == b.toNat)).map entry else none).or (m (bytesToHex [a, b])) := by
  induction xs with
  | nil => intro m _; simp [putByIndex]
  | cons x xs ih =>
    intro m hn
    rw [List.map_cons, List.nodup_cons] at hn
    rw [putByIndex, ih _ hn.2]
    by_cases hm : mi = a.toNat
    · rw [if_pos hm, if_pos hm]
      by_cases hx : idx x = b.toNat
      · have h0 : xs.find? (fun x => idx x == b.toNat) = none := by
          rw [List.find?_eq_none]
          intro y hy e
          exact hn.1 (List.mem_map.2 ⟨y, hy, by rw [hx]; simpa using e⟩)
        rw [h0, List.find?_cons_of_pos (by simpa using hx), Index.put, if_pos ((indexKey_iff _ _ a b).2 ⟨hm, hx⟩).symm]
        rfl
      · rw [List.find?_cons_of_neg (by simpa using hx), Index.put, if_neg]
        intro h
        exact hx ((indexKey_iff _ _ a b).1 h.symm).2
    · rw [if_neg hm, if_neg hm, Option.none_or, Option.none_or, Index.put, if_neg]
      intro h
      exact hm ((indexKey_iff _ _ a b).1 h.symm).1

/-- A table that fills in the entries of one module after the other, each module owning the keys with its number. -/
theorem table_get {β : Type} (step : MetaModule → Index β → Index β) (own : MetaModule → Option β) (a : Nat) (k : Str)
    (loop : List MetaModule → Index β → Index β) (h0 : ∀ m, loop [] m = m) (h1 : ∀ x l m, loop (x :: l) m = loop l (step x m))
    (ms : List MetaModule) (hs : ∀ x ∈ ms, ∀ m, step x m k = (if x.index = a then own x else none).or (m k)) :
    ∀ m, (ms.map (·.index)).Nodup → loop ms m k = ((ms.find? (fun x => x.index == a)).bind own).or (m k) := by
  induction ms with
  | nil => intro m _; rw [h0]; simp
  | cons x xs ih =>
    intro m hn
    rw [List.map_cons, List.nodup_cons] at hn
    rw [h1, ih (fun y hy => hs y (List.mem_cons_of_mem _ hy)) _ hn.2, hs x List.mem_cons_self]
    by_cases hx : x.index = a
    · have h0 : xs.find? (fun y => y.index == a) = none := by
        rw [List.find?_eq_none]
        intro y hy e
        exact hn.1 (List.mem_map.2 ⟨y, hy, by rw [hx]; simpa using e⟩)
      rw [h0, List.find?_cons_of_pos (by simpa using hx), if_pos hx]
      rfl
    · rw [List.find?_cons_of_neg (by simpa using hx), if_neg hx, Option.none_or]

theorem find_some_iff {α : Type} (key : α → Nat) (a : Nat) (x : α) : ∀ (l : List α), (l.map key).Nodup →
    (l.find? (fun y => key y == a) = some x ↔ x ∈ l ∧ key x = a) := by
  intro l
  induction l with
  | nil => simp
  | cons y ys ih =>
    intro hn
    rw [List.map_cons, List.nodup_cons] at hn
    by_cases hy : key y = a
    · rw [List.find?_cons_of_pos (by simpa using hy)]
      constructor
      · rintro h; cases h; exact ⟨List.mem_cons_self, hy⟩
      · rintro ⟨hm, hx⟩
        rcases List.mem_cons.1 hm with rfl | hm
        · rfl
        · exact absurd (List.mem_map.2 ⟨x, hm, by rw [hx, hy]⟩) hn.1
    · rw [List.find?_cons_of_neg (by simpa using hy), ih hn.2]
      constructor
      · rintro ⟨hm, hx⟩; exact ⟨List.mem_cons_of_mem _ hm, hx⟩
      · rintro ⟨hm, hx⟩
        rcases List.mem_cons.1 hm with rfl | hm
        · exact absurd hx hy
        · exact ⟨hm, hx⟩

theorem getD_getElem {α : Type} (o : Option (List α)) (i : Nat) (x : α) : (o.getD [])[i]? = some x ↔ ∃ l, o = some l ∧ l[i]? = some x := by
  cases o <;> simp

/-- Versions 12 and 13, calls: looking up two bytes finds exactly the call with these indices. -/
theorem C37_v12_calls (ms : List MetaModule) (hd : (ms.map (·.index)).Nodup) (a b : UInt8) (e : CallEntry) :
    callsV12 ms (fun _ => none) (_root_.Spec.hexText [a, b]) = some e ↔ CallAt12 ms a.toNat b.toNat e := by
  rw [← bytesToHex_eq_spec, table_get (fun mod m => putByPosition (callEntry mod) mod.index 0 (mod.calls.getD []) m)
    (fun mod => ((mod.calls.getD [])[b.toNat]?).map (callEntry mod)) a.toNat _ callsV12 (fun _ => rfl) (fun _ _ _ => rfl) ms
    (fun x _ m => by
      rw [putByPosition_get]
      simp) _ hd]
  simp only [Option.or_none, Option.bind_eq_some_iff, find_some_iff _ _ _ _ hd, Option.map_eq_some_iff, getD_getElem, CallAt12]
  constructor
  · rintro ⟨mod, ⟨h1, h2⟩, call, ⟨l, h3, h4⟩, h5⟩
    exact ⟨mod, h1, h2, l, call, h3, h4, h5.symm⟩
  · rintro ⟨mod, h1, h2, l, call, h3, h4, h5⟩
    exact ⟨mod, ⟨h1, h2⟩, call, ⟨l, h3, h4⟩, h5.symm⟩

/-- Versions 12 and 13, events. -/
theorem C37_v12_events (ms : List MetaModule) (hd : (ms.map (·.index)).Nodup) (a b : UInt8) (e : EventEntry) :
    eventsV12 ms (fun _ => none) (_root_.Spec.hexText [a, b]) = some e ↔ EventAt12 ms a.toNat b.toNat e := by
  rw [← bytesToHex_eq_spec, table_get (fun mod m => putByPosition (eventEntry mod) mod.index 0 (mod.events.getD []) m)
    (fun mod => ((mod.events.getD [])[b.toNat]?).map (eventEntry mod)) a.toNat _ eventsV12 (fun _ => rfl) (fun _ _ _ => rfl) ms
    (fun x _ m => by
      rw [putByPosition_get]
      simp) _ hd]
  simp only [Option.or_none, Option.bind_eq_some_iff, find_some_iff _ _ _ _ hd, Option.map_eq_some_iff, getD_getElem, EventAt12]
  constructor
  · rintro ⟨mod, ⟨h1, h2⟩, call, ⟨l, h3, h4⟩, h5⟩
    exact ⟨mod, h1, h2, l, call, h3, h4, h5.symm⟩
  · rintro ⟨mod, h1, h2, l, call, h3, h4, h5⟩
    exact ⟨mod, ⟨h1, h2⟩, call, ⟨l, h3, h4⟩, h5.symm⟩

/-- Versions 14 and 15, calls. -/
theorem C37_v14_calls (ms : List MetaModule) (hd : (ms.map (·.index)).Nodup)
    (hc : ∀ mod ∈ ms, ∀ l, mod.calls = some l → (l.map (·.lookupIndex)).Nodup) (a b : UInt8) (e : CallEntry) :
    callsV14 ms (fun _ => none) (_root_.Spec.hexText [a, b]) = some e ↔ CallAt14 ms a.toNat b.toNat e := by
  have hc' : ∀ mod ∈ ms, ((mod.calls.getD []).map (·.lookupIndex)).Nodup := fun mod hm => by
    cases h : mod.calls with
    | none => simp
    | some l => exact hc mod hm l h
  rw [← bytesToHex_eq_spec, table_get (fun mod m => putByIndex (callEntry mod) MetaCall.lookupIndex mod.index (mod.calls.getD []) m)
    (fun mod => ((mod.calls.getD []).find? (fun c => c.lookupIndex == b.toNat)).map (callEntry mod)) a.toNat _ callsV14 (fun _ => rfl)
    (fun _ _ _ => rfl) ms (fun x hx m => putByIndex_get _ _ _ _ _ _ _ (hc' x hx)) _ hd]
  simp only [Option.or_none, Option.bind_eq_some_iff, find_some_iff _ _ _ _ hd, Option.map_eq_some_iff, CallAt14]
  constructor
  · rintro ⟨mod, ⟨h1, h2⟩, call, h3, h4⟩
    rw [find_some_iff _ _ _ _ (hc' mod h1)] at h3
    cases h : mod.calls with
    | none => rw [h] at h3; simp at h3
    | some l => rw [h] at h3; exact ⟨mod, h1, h2, l, h, call, h3.1, h3.2, h4.symm⟩
  · rintro ⟨mod, h1, h2, l, h, call, h3, h4, h5⟩
    refine ⟨mod, ⟨h1, h2⟩, call, ?_, h5.symm⟩
    rw [find_some_iff _ _ _ _ (hc' mod h1), h]
    exact ⟨h3, h4⟩

/-- Versions 14 and 15, events. -/
theorem C37_v14_events (ms : List MetaModule) (hd : (ms.map (·.index)).Nodup)
    (hc : ∀ mod ∈ ms, ∀ l, mod.events = some l → (l.map (·.lookupIndex)).Nodup) (a b : UInt8) (e : EventEntry) :
    eventsV14 ms (fun _ => none) (_root_.Spec.hexText [a, b]) = some e ↔ EventAt14 ms a.toNat b.toNat e := by
  have hc' : ∀ mod ∈ ms, ((mod.events.getD []).map (·.lookupIndex)).Nodup := fun mod hm => by
    cases h : mod.events with
    | none => simp
    | some l => exact hc mod hm l h
  rw [← bytesToHex_eq_spec, table_get (fun mod m => putByIndex (eventEntry mod) MetaEvent.lookupIndex mod.index (mod.events.getD []) m)
    (fun mod => ((mod.events.getD []).find? (fun c => c.lookupIndex == b.toNat)).map (eventEntry mod)) a.toNat _ eventsV14 (fun _ => rfl)
    (fun _ _ _ => rfl) ms (fun x hx m => putByIndex_get _ _ _ _ _ _ _ (hc' x hx)) _ hd]
  simp only [Option.or_none, Option.bind_eq_some_iff, find_some_iff _ _ _ _ hd, Option.map_eq_some_iff, EventAt14]
  constructor
  · rintro ⟨mod, ⟨h1, h2⟩, call, h3, h4⟩
    rw [find_some_iff _ _ _ _ (hc' mod h1)] at h3
    cases h : mod.events with
    | none => rw [h] at h3; simp at h3
    | some l => rw [h] at h3; exact ⟨mod, h1, h2, l, h, call, h3.1, h3.2, h4.symm⟩
  · rintro ⟨mod, h1, h2, l, h, call, h3, h4, h5⟩
    refine ⟨mod, ⟨h1, h2⟩, call, ?_, h5.symm⟩
    rw [find_some_iff _ _ _ _ (hc' mod h1), h]
    exact ⟨h3, h4⟩

theorem callsV11_get (a b : UInt8) (e : CallEntry) (ms : List MetaModule) : ∀ (n : Nat) (m : Index CallEntry),
    (n ≤ a.toNat → m (bytesToHex [a, b]) = none) →
    (callsV11 n ms m (bytesToHex [a, b]) = some e ↔ (n ≤ a.toNat ∧ CallAt11 ms (a.toNat - n) b.toNat e) ∨ m (bytesToHex [a, b]) = some e) := by
  induction ms with
  | nil =>
    intro n m _
    rw [callsV11]
    constructor
    · exact .inr
    · rintro (⟨-, before, mod, after, h, -⟩ | h)
      · cases before <;> cases h
      · exact h
  | cons mod rest ih =>
    intro n m hm
    have shift : ∀ k, CallAt11 (mod :: rest) k b.toNat e ↔
        (k = 0 ∧ ∃ l call, mod.calls = some l ∧ l[b.toNat]? = some call ∧ e = ⟨call.name, mod.name, call.args⟩) ∨
        ((if mod.calls.isSome then 1 else 0) ≤ k ∧ CallAt11 rest (k - if mod.calls.isSome then 1 else 0) b.toNat e) := by
      intro k
      constructor
      · rintro ⟨before, x, after, h1, h2, h3⟩
        cases before with
        | nil => cases h1; exact .inl ⟨by simpa using h2.symm, h3⟩
        | cons y ys =>
          rw [List.cons_append] at h1
          obtain ⟨rfl, h1'⟩ := List.cons.inj h1
          rw [List.countP_cons] at h2
          refine .inr ⟨by omega, ys, x, after, h1', by omega, h3⟩
      · rintro (⟨rfl, h⟩ | ⟨h1, before, x, after, h2, h3, h4⟩)
        · exact ⟨[], mod, rest, rfl, rfl, h⟩
        · refine ⟨mod :: before, x, after, by rw [h2]; rfl, ?_, h4⟩
          rw [List.countP_cons]
          omega
    rw [callsV11]
    cases hcalls : mod.calls with
    | none =>
      dsimp only
      rw [ih n m hm, shift, hcalls]
      simp
    | some l =>
      dsimp only
      rw [shift, hcalls, ih]
      · rw [putByPosition_get]
        simp only [Nat.zero_le, and_true, Nat.sub_zero, Option.isSome_some, if_true]
        by_cases hn : n = a.toNat
        · rw [if_pos hn, hm (by omega), Option.or_none, Option.map_eq_some_iff]
          constructor
          · rintro (⟨h, -⟩ | ⟨call, h1, h2⟩)
            · omega
            · exact .inl ⟨by omega, .inl ⟨by omega, l, call, rfl, h1, h2.symm⟩⟩
          · rintro (⟨-, ⟨-, l', call, h1, h2, h3⟩ | ⟨h, -⟩⟩ | h)
            · cases h1; exact .inr ⟨call, h2, h3.symm⟩
            · omega
            · cases h
        · rw [if_neg hn, Option.none_or]
          constructor
          · rintro (⟨h1, h2⟩ | h)
            · exact .inl ⟨by omega, .inr ⟨by omega, by rwa [Nat.sub_sub]⟩⟩
            · exact .inr h
          · rintro (⟨h0, ⟨h, -⟩ | ⟨h1, h2⟩⟩ | h)
            · omega
            · exact .inl ⟨by omega, by rwa [Nat.sub_sub] at h2⟩
            · exact .inr h
      · intro hn
        rw [putByPosition_get, if_neg (by omega), Option.none_or]
        exact hm (by omega)

/-- Versions 9 to 11, calls. -/
theorem C37_v11_calls (ms : List MetaModule) (a b : UInt8) (e : CallEntry) :
    callsV11 0 ms (fun _ => none) (_root_.Spec.hexText [a, b]) = some e ↔ CallAt11 ms a.toNat b.toNat e := by
  rw [← bytesToHex_eq_spec, callsV11_get a b e ms 0 _ (fun _ => rfl)]
  simp

theorem eventsV11_get (a b : UInt8) (e : EventEntry) (ms : List MetaModule) : ∀ (n : Nat) (m : Index EventEntry),
    (n ≤ a.toNat → m (bytesToHex [a, b]) = none) →
    (eventsV11 n ms m (bytesToHex [a, b]) = some e ↔ (n ≤ a.toNat ∧ EventAt11 ms (a.toNat - n) b.toNat e) ∨ m (bytesToHex [a, b]) = some e) := by
  induction ms with
  | nil =>
    intro n m _
    rw [eventsV11]
    constructor
    · exact .inr
    · rintro (⟨-, before, mod, after, h, -⟩ | h)
      · cases before <;> cases h
      · exact h
  | cons mod rest ih =>
    intro n m hm
    have shift : ∀ k, EventAt11 (mod :: rest) k b.toNat e ↔
        (k = 0 ∧ ∃ l ev, mod.events = some l ∧ l[b.toNat]? = some ev ∧ e = ⟨ev.name, mod.name, ev.args, ev.argsName, ev.argsTypeName⟩) ∨
        ((if mod.events.isSome then 1 else 0) ≤ k ∧ EventAt11 rest (k - if mod.events.isSome then 1 else 0) b.toNat e) := by
      intro k
      constructor
      · rintro ⟨before, x, after, h1, h2, h3⟩
        cases before with
        | nil => cases h1; exact .inl ⟨by simpa using h2.symm, h3⟩
        | cons y ys =>
          rw [List.cons_append] at h1
          obtain ⟨rfl, h1'⟩ := List.cons.inj h1
          rw [List.countP_cons] at h2
          refine .inr ⟨by omega, ys, x, after, h1', by omega, h3⟩
      · rintro (⟨rfl, h⟩ | ⟨h1, before, x, after, h2, h3, h4⟩)
        · exact ⟨[], mod, rest, rfl, rfl, h⟩
        · refine ⟨mod :: before, x, after, by rw [h2]; rfl, ?_, h4⟩
          rw [List.countP_cons]
          omega
    rw [eventsV11]
    cases hevents : mod.events with
    | none =>
      dsimp only
      rw [ih n m hm, shift, hevents]
      simp
    | some l =>
      dsimp only
      rw [shift, hevents, ih]
      · rw [putByPosition_get]
        simp only [Nat.zero_le, and_true, Nat.sub_zero, Option.isSome_some, if_true]
        by_cases hn : n = a.toNat
        · rw [if_pos hn, hm (by omega), Option.or_none, Option.map_eq_some_iff]
          constructor
          · rintro (⟨h, -⟩ | ⟨call, h1, h2⟩)
            · omega
            · exact .inl ⟨by omega, .inl ⟨by omega, l, call, rfl, h1, h2.symm⟩⟩
          · rintro (⟨-, ⟨-, l', call, h1, h2, h3⟩ | ⟨h, -⟩⟩ | h)
            · cases h1; exact .inr ⟨call, h2, h3.symm⟩
            · omega
            · cases h
        · rw [if_neg hn, Option.none_or]
          constructor
          · rintro (⟨h1, h2⟩ | h)
            · exact .inl ⟨by omega, .inr ⟨by omega, by rwa [Nat.sub_sub]⟩⟩
            · exact .inr h
          · rintro (⟨h0, ⟨h, -⟩ | ⟨h1, h2⟩⟩ | h)
            · omega
            · exact .inl ⟨by omega, by rwa [Nat.sub_sub] at h2⟩
            · exact .inr h
      · intro hn
        rw [putByPosition_get, if_neg (by omega), Option.none_or]
        exact hm (by omega)

/-- Versions 9 to 11, events. -/
theorem C37_v11_events (ms : List MetaModule) (a b : UInt8) (e : EventEntry) :
    eventsV11 0 ms (fun _ => none) (_root_.Spec.hexText [a, b]) = some e ↔ EventAt11 ms a.toNat b.toNat e := by
  rw [← bytesToHex_eq_spec, eventsV11_get a b e ms 0 _ (fun _ => rfl)]
  simp

/-- Two modules with unordered, distinct indices; calls and events with gaps. -/
def keyModules : List MetaModule :=
  [⟨b!"B", 200, some [⟨b!"x", [], 9⟩, ⟨b!"y", [(b!"who", b!"AccountId")], 0⟩], none⟩,
   ⟨b!"A", 3, some [], some [⟨b!"E", [b!"u32"], [], [], 17⟩]⟩]

example : (keyModules.map (·.index)).Nodup ∧ (∀ mod ∈ keyModules, ∀ l, mod.calls = some l → (l.map (·.lookupIndex)).Nodup) ∧
    (∀ mod ∈ keyModules, ∀ l, mod.events = some l → (l.map (·.lookupIndex)).Nodup) := by
  refine ⟨by decide, ?_, ?_⟩ <;>
  · intro mod hm l h
    simp only [keyModules, List.mem_cons, List.not_mem_nil, or_false] at hm
    rcases hm with rfl | rfl <;> cases h <;> decide

example : callsV14 keyModules (fun _ => none) b!"c809" = some ⟨b!"x", b!"B", []⟩ :=
  (C37_v14_calls keyModules (by decide) (by
    intro mod hm l h
    simp only [keyModules, List.mem_cons, List.not_mem_nil, or_false] at hm
    rcases hm with rfl | rfl <;> cases h <;> decide) 200 9 _).2
    ⟨_, List.mem_cons_self, rfl, _, rfl, _, List.mem_cons_self, rfl, rfl⟩

example : callsV11 0 keyModules (fun _ => none) b!"0001" = some ⟨b!"y", b!"B", [(b!"who", b!"AccountId")]⟩ :=
  (C37_v11_calls keyModules 0 1 _).2 ⟨[], _, _, rfl, rfl, _, _, rfl, rfl, rfl⟩

end ScaleGo
