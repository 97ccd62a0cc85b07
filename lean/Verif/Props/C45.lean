import Mathlib.Data.List.Forall2
import Verif.Props.C47
import Verif.Props.C07
import Verif.Props.C30

/-! # C45: event records -/

namespace ScaleGo

open ScaleGo.Spec

namespace Spec

/-- Bytes of a phase: `ApplyExtrinsic` with a 4-byte number, or one byte for the others. -/
def IsPhase (pb : Str) (phase : Nat) (x : Int) : Prop :=
  (∃ n : Nat, n < 2 ^ 32 ∧ pb = 0 :: _root_.Spec.leBytes 4 n ∧ phase = 0 ∧ x = n) ∨
  (∃ y : UInt8, y ≠ 0 ∧ pb = [y] ∧ phase = y.toNat ∧ x = 0)

/-- Bytes of the topics, which exist since metadata version 5. -/
def IsTopics (env : Env) (ctx : Ctx) (md : MD) (tb : Str) (ts : List Str) : Prop :=
  if 5 ≤ md.version then Decodes env ctx b!"Vec<Hash>" tb (if ts = [] then .nilSlice else .slice (ts.map .str)) []
  else tb = [] ∧ ts = []

/-- `b` is the record of the event `ev`: phase, two index bytes that the metadata knows, the arguments in the order of the
metadata, topics. -/
def IsRecord (env : Env) (spec : Int) (md : MD) (b : Str) (ev : Event) (ic : List Str) : Prop :=
  ∃ (pb tb : Str) (i j : UInt8) (e : EventEntry) (items : List Item),
    b = pb ++ ([i, j] ++ ((items.map (·.2.1)).flatten ++ tb)) ∧ IsPhase pb ev.phase ev.extrinsicIdx ∧
    md.eventIndex (_root_.Spec.hexText [i, j]) = some e ∧
    List.Forall₂ (fun t x => Decodes env ⟨e.moduleName, spec, some md⟩ t x.2.1 x.1 x.2.2) e.args items ∧
    IsTopics env ⟨e.moduleName, spec, some md⟩ md tb ev.topics ∧
    ev.type = _root_.Spec.hexText [i, j] ∧ ev.moduleId = e.moduleName ∧ ev.eventId = e.eventName ∧
    ev.params = e.args.zip ((if e.argsName.length = e.args.length then e.argsName else e.args.map fun _ => []).zip (items.map (·.1))) ∧
    ev.paramsRaw = _root_.Spec.hexText (items.map (·.2.1)).flatten ∧ ic = (items.map (·.2.2)).flatten

end Spec

theorem decAt_u32 {env : Env} {ctx : Ctx} {s : Str} (h : Resolves env ctx.module ctx.spec b!"U32" .u32 s) {n : Nat} (hn : n < 2 ^ 32)
    (m : Nat) : DecAt (pau env (m + 1) ctx b!"U32") (_root_.Spec.leBytes 4 n) (.uint 4 n) [] := by
  intro pre suf cs hl
  rw [pau_resolves m _ h]
  show processUint 4 _ = _
  unfold processUint
  rw [nextBytes_at pre _ suf cs _ (by rw [leBytes_length]) hl]
  simp only [Res.ok_bind, readInto_self (leBytes_length 4 n), List.append_nil]
  rw [leNat_leBytes (by rw [pow256]; exact hn)]

theorem decAt_phase {env : Env} {ctx : Ctx} {s : Str} (h : Resolves env ctx.module ctx.spec b!"U32" .u32 s) {pb : Str} {phase : Nat}
    {x : Int} (hp : IsPhase pb phase x) (m : Nat) : DecAt (readPhase (pau env (m + 1)) ctx) pb (phase, x) [] := by
  have hb : ∀ y : UInt8, DecAt getNextU8 [y] y.toNat [] := fun y => by
    unfold getNextU8
    exact DecAt.byte (DecAt.pure _)
  unfold readPhase
  rcases hp with ⟨n, hn, rfl, rfl, rfl⟩ | ⟨y, hy, rfl, rfl, rfl⟩
  · refine DecAt.step0 (b1 := [0]) (hb 0) ?_
    rw [show (0 : UInt8).toNat = 0 from rfl]
    dsimp only
    simp only [if_true]
    exact DecAt.last (decAt_u32 h hn m) (fun _ => rfl)
  · refine DecAt.last (hb y) (fun st => ?_)
    have : ¬ y.toNat = 0 := fun e => hy (UInt8.toNat_inj.1 e)
    dsimp only
    rw [if_neg this]

theorem decAt_eventArgs {rec : Rec} {ctx : Ctx} : ∀ (args : List Str) (items : List Item) (ns : List Str),
    List.Forall₂ (fun t x => DecAt (rec ctx t) x.2.1 x.1 x.2.2) args items → 
    DecAt (readEventArgs rec ctx args ns) (items.map (·.2.1)).flatten
      (args.zip (((ns.take args.length) ++ List.replicate (args.length - ns.length) []).zip (items.map (fun (x : Item) => x.1)))) (items.map (·.2.2)).flatten := by
  intro args items ns h
  induction h generalizing ns with
  | nil => exact DecAt.pure _
  | @cons t x ts xs h1 h2 ih =>
    have := DecAt.bind (g := fun v st => readEventArgs rec ctx ts ns.tail st >>= fun p => .ok ((t, ns.headD [], v) :: p.1, p.2)) h1
      ((ih ns.tail).map (fun ps => (t, ns.headD [], x.1) :: ps))
    cases ns with
    | nil => simpa [readEventArgs, List.replicate_succ] using this
    | cons a ns => simpa [readEventArgs] using this

theorem topicStrs_map (ts : List Str) : topicStrs (ts.map .str) = .ok ts := by
  induction ts with
  | nil => rfl
  | cons t ts ih => simp only [List.map_cons, topicStrs, ih, Res.ok_bind]

theorem forall2_bound {env : Env} {ctx : Ctx} {args : List Str} {items : List Item}
    (h : List.Forall₂ (fun t x => Decodes env ctx t x.2.1 x.1 x.2.2) args items) :
    ∃ N, ∀ n, N ≤ n → List.Forall₂ (fun t x => DecAt (pau env n ctx t) x.2.1 x.1 x.2.2) args items := by
  induction h with
  | nil => exact ⟨0, fun _ _ => .nil⟩
  | cons a _ ih =>
    obtain ⟨N1, a⟩ := a
    obtain ⟨N2, c⟩ := ih
    exact ⟨max N1 N2, fun n hn => .cons (a n (by omega)) (c n (by omega))⟩

/-- One record. -/
theorem decAt_record {env : Env} {spec : Int} {md : MD} {b : Str} {ev : Event} {ic : List Str}
    (hu : ∀ m, ∃ s, Resolves env m spec b!"U32" .u32 s) (h : IsRecord env spec md b ev ic) :
    ∃ N, ∀ n, N ≤ n → ∀ module, DecAt (processEvent (pau env n) spec md module ev.idx) b (ev, ev.moduleId) ic := by
  obtain ⟨pb, tb, i, j, e, items, rfl, hph, he, hargs, ht, h1, h2, h3, h4, h5, rfl⟩ := h
  have hargs' := forall2_bound hargs
  obtain ⟨N1, hargs'⟩ := hargs'
  have htop : ∃ N, ∀ n, N ≤ n → DecAt (readTopics (pau env n) ⟨e.moduleName, spec, some md⟩ md) tb ev.topics [] := by
    unfold IsTopics at ht
    split at ht
    · rename_i hv
      obtain ⟨N, ht⟩ := ht
      refine ⟨N, fun n hn => ?_⟩
      unfold readTopics
      simp only [ge_iff_le, hv, if_true]
      refine DecAt.last (ht n hn) (fun st => ?_)
      dsimp only
      split
      · rename_i e0; rw [e0]; rfl
      · simp only [topicsOf, topicStrs_map, Res.ok_bind]
    · rename_i hv
      obtain ⟨rfl, hts⟩ := ht
      refine ⟨0, fun n _ => ?_⟩
      unfold readTopics
      simp only [ge_iff_le, hv, if_false, hts]
      exact DecAt.pure _
  obtain ⟨N2, htop⟩ := htop
  refine ⟨max (max N1 N2) 1, fun n hn module => ?_⟩
  obtain ⟨m, rfl⟩ : ∃ m, n = m + 1 := ⟨n - 1, by omega⟩
  obtain ⟨s, hs⟩ := hu module
  have d1 := decAt_phase (ctx := ⟨module, spec, some md⟩) hs hph m
  have d3 := decAt_eventArgs e.args items (if e.argsName.length = e.args.length then e.argsName else []) (hargs' (m + 1) (by omega))
  have d4 := htop (m + 1) (by omega)
  intro pre suf cs hl
  unfold processEvent
  have l1 := d1 pre ([i, j] ++ ((items.map (·.2.1)).flatten ++ tb) ++ suf) cs (by simp only [List.length_append] at hl ⊢; omega)
  have l2 := nextBytes_at (pre ++ pb) [i, j] ((items.map (·.2.1)).flatten ++ tb ++ suf) cs 2 rfl
    (by simp only [List.length_append] at hl ⊢; omega)
  have l3 := d3 (pre ++ pb ++ [i, j]) (tb ++ suf) cs (by simp only [List.length_append] at hl ⊢; omega)
  have l4 := d4 (pre ++ pb ++ [i, j] ++ (items.map (·.2.1)).flatten) suf (cs ++ (items.map (·.2.2)).flatten)
    (by simp only [List.length_append] at hl ⊢; omega)
  have hraw : ((pre ++ (pb ++ ([i, j] ++ ((items.map (·.2.1)).flatten ++ (tb ++ suf))))).drop (pre.length + pb.length + [i, j].length)).take
      (pre.length + pb.length + [i, j].length + (items.map (·.2.1)).flatten.length - (pre.length + pb.length + [i, j].length)) =
      (items.map (·.2.1)).flatten := by
    have e1 : pre ++ (pb ++ ([i, j] ++ ((items.map (·.2.1)).flatten ++ (tb ++ suf)))) =
      (pre ++ pb ++ [i, j]) ++ ((items.map (·.2.1)).flatten ++ (tb ++ suf)) := by simp only [List.append_assoc]
    rw [e1, show pre.length + pb.length + [i, j].length = (pre ++ pb ++ [i, j]).length by simp only [List.length_append],
      List.drop_left, Nat.add_sub_cancel_left, List.take_left]
  simp only [List.append_assoc, List.length_append, List.append_nil, Nat.add_assoc] at l1 l2 l3 l4 hraw ⊢
  rw [l1, Res.ok_bind]
  dsimp only
  rw [l2, Res.ok_bind]
  dsimp only
  rw [← bytesToHex_eq_spec] at he
  rw [he]
  dsimp only
  rw [l3, Res.ok_bind]
  dsimp only
  rw [l4, Res.ok_bind]
  dsimp only
  rw [hraw]
  obtain ⟨idx, phase, xi, type, mid, eid, params, topics, praw⟩ := ev
  dsimp only at h1 h2 h3 h4 h5 ⊢
  subst h1 h2 h3
  rw [h4, h5, bytesToHex_eq_spec, bytesToHex_eq_spec]
  have hn : (if e.argsName.length = e.args.length then e.argsName else []).take e.args.length ++
      List.replicate (e.args.length - (if e.argsName.length = e.args.length then e.argsName else []).length) [] =
      if e.argsName.length = e.args.length then e.argsName else e.args.map fun _ => [] := by
    split
    · rename_i hc; rw [← hc]; simp
    · simp [List.map_const']
  rw [hn]

/-- Records in a row. -/
theorem decAt_records {rec : Rec} {spec : Int} {md : MD} : ∀ (rs : List (Str × Event × List Str)) (i : Nat) (module : Str),
    (∀ r ∈ rs, ∀ module, DecAt (processEvent rec spec md module r.2.1.idx) r.1 (r.2.1, r.2.1.moduleId) r.2.2) →
    rs.map (·.2.1.idx) = List.range' i rs.length →
    DecAt (processEvents rec spec md i rs.length module) (rs.map (·.1)).flatten (rs.map (·.2.1)) (rs.map (·.2.2)).flatten
  | [], _, _, _, _ => DecAt.pure _
  | r :: rs, i, module, h, hi => by
    rw [List.map_cons, List.length_cons, List.range'_succ] at hi
    obtain ⟨hi1, hi2⟩ := List.cons.inj hi
    have d1 := h r (by simp) module
    rw [hi1] at d1
    have d2 := decAt_records rs (i + 1) r.2.1.moduleId (fun x hx => h x (by simp [hx])) hi2
    have := DecAt.bind (g := fun v st => processEvents rec spec md (i + 1) rs.length v.2 st >>= fun p => .ok (v.1 :: p.1, p.2)) d1
      (d2.map (fun es => r.2.1 :: es))
    simpa [processEvents] using this

theorem decAt_all {env : Env} {spec : Int} {md : MD} (hu : ∀ m, ∃ s, Resolves env m spec b!"U32" .u32 s)
    (rs : List (Str × Event × List Str)) (h : ∀ r ∈ rs, IsRecord env spec md r.1 r.2.1 r.2.2) : ∃ N, ∀ n, N ≤ n → ∀ r ∈ rs, ∀ module,
      DecAt (processEvent (pau env n) spec md module r.2.1.idx) r.1 (r.2.1, r.2.1.moduleId) r.2.2 := by
  induction rs with
  | nil => exact ⟨0, fun _ _ _ hx => absurd hx (by simp)⟩
  | cons a rs ih =>
    obtain ⟨N1, h1⟩ := decAt_record hu (h a (by simp))
    obtain ⟨N2, h2⟩ := ih fun x hx => h x (by simp [hx])
    refine ⟨max N1 N2, fun n hn x hx => ?_⟩
    rcases List.mem_cons.mp hx with rfl | hx
    · exact h1 n (by omega)
    · exact h2 n (by omega) x hx

/-- C45 on well-formed input: a count and that many records are decoded to exactly these events, in order, and decoding stops behind
the last one. -/
theorem C45_decodes (env : Env) (spec : Int) (md : MD) (module : Str) (hl : LenOK env ⟨module, spec, some md⟩)
    (hu : ∀ m, ∃ s, Resolves env m spec b!"U32" .u32 s) (rs : List (Str × Event × List Str))
    (h : ∀ r ∈ rs, IsRecord env spec md r.1 r.2.1 r.2.2) (hi : rs.map (·.2.1.idx) = List.range rs.length) (c suf : Str)
    (hc : _root_.Spec.IsCompact rs.length c) (hlen : c.length + (rs.map (·.1)).flatten.length + suf.length < 2 ^ 63) (hn : rs.length < 2 ^ 63) :
    ∃ N, ∀ fuel, N ≤ fuel → decodeEvents env fuel spec md module (c ++ ((rs.map (·.1)).flatten ++ suf)) =
      .ok (rs.map (·.2.1), ⟨⟨c ++ ((rs.map (·.1)).flatten ++ suf), c.length + (rs.map (·.1)).flatten.length⟩, (rs.map (·.2.2)).flatten⟩) := by
  obtain ⟨N1, h1⟩ := decAt_all hu rs h
  obtain ⟨N2, h2⟩ := len_decodes hl hn hc
  refine ⟨max N1 N2, fun n hle => ?_⟩
  have d := decAt_records rs 0 [] (h1 n (by omega)) (by rw [hi, List.range_eq_range'])
  have e1 := h2 n (by omega) [] ((rs.map (·.1)).flatten ++ suf) [] (by simp only [List.length_append, List.length_nil]; omega)
  have e2 := d c suf [] (by omega)
  unfold decodeEvents
  simp only [List.nil_append, List.length_nil, Nat.zero_add, List.append_nil] at e1
  rw [e1]
  simp only [Res.ok_bind, asInt, Int.toNat_natCast]
  rw [e2, List.nil_append]

namespace Spec

/-- Events decoded one after the other: each one starts where the previous one stopped, numbered from `i`. -/
inductive Chain (rec : Rec) (spec : Int) (md : MD) : Nat → List Event → St → St → Prop
  | nil (i : Nat) (st : St) : Chain rec spec md i [] st st
  | cons (i : Nat) (module module' : Str) (e : Event) (es : List Event) (s t u : St)
      (h : processEvent rec spec md module i s = .ok ((e, module'), t)) (hi : e.idx = i) (hle : s.cur.off ≤ t.cur.off)
      (hd : t.cur.data = s.cur.data) (hk : ∃ x, md.eventIndex e.type = some x ∧ e.moduleId = x.moduleName ∧ e.eventId = x.eventName ∧
        e.params.map (·.1) = x.args)
      (rest : Chain rec spec md (i + 1) es t u) : Chain rec spec md i (e :: es) s u

end Spec

theorem readEventArgs_types {rec : Rec} {ctx : Ctx} : ∀ (ts ns : List Str) (st : St) (ps : List (Str × Str × Val)) (st' : St),
    readEventArgs rec ctx ts ns st = .ok (ps, st') → ps.map (·.1) = ts
  | [], ns, st, ps, st', h => by
    rw [readEventArgs] at h
    cases h; rfl
  | t :: ts, ns, st, ps, st', h => by
    rw [readEventArgs] at h
    rw [Res.bind_eq_ok] at h
    obtain ⟨⟨v, s1⟩, _, h⟩ := h
    rw [Res.bind_eq_ok] at h
    obtain ⟨⟨r, s2⟩, h1, h⟩ := h
    cases h
    rw [List.map_cons, readEventArgs_types ts _ s1 r _ h1]

theorem processEvent_known {rec : Rec} {spec : Int} {md : MD} {module module' : Str} {i : Nat} {st st' : St} {e : Event}
    (h : processEvent rec spec md module i st = .ok ((e, module'), st')) : e.idx = i ∧
      ∃ x, md.eventIndex e.type = some x ∧ e.moduleId = x.moduleName ∧ e.eventId = x.eventName ∧ e.params.map (·.1) = x.args := by
  unfold processEvent at h
  rw [Res.bind_eq_ok] at h
  obtain ⟨⟨⟨p, y⟩, s1⟩, _, h⟩ := h
  rw [Res.bind_eq_ok] at h
  obtain ⟨⟨b, s2⟩, _, h⟩ := h
  dsimp only at h
  split at h
  · cases h
  · rename_i x hx
    rw [Res.bind_eq_ok] at h
    obtain ⟨⟨ps, s3⟩, h1, h⟩ := h
    rw [Res.bind_eq_ok] at h
    obtain ⟨⟨ts, s4⟩, _, h⟩ := h
    cases h
    exact ⟨rfl, x, hx, rfl, rfl, readEventArgs_types _ _ _ _ _ h1⟩

theorem processEvents_chain {env : Env} {fuel : Nat} {spec : Int} {md : MD} (n : Nat) : ∀ (i : Nat) (module : Str) (st st' : St)
    (es : List Event), InB st → processEvents (pau env fuel) spec md i n module st = .ok (es, st') →
    es.length = n ∧ es.map (·.idx) = List.range' i n ∧ Chain (pau env fuel) spec md i es st st' := by
  induction n with
  | zero =>
    intro i module st st' es _ h
    rw [processEvents] at h
    cases h
    exact ⟨rfl, rfl, .nil i st⟩
  | succ n ih =>
    intro i module st st' es hin h
    rw [processEvents] at h
    rw [Res.bind_eq_ok] at h
    obtain ⟨⟨⟨e, module'⟩, s1⟩, h1, h⟩ := h
    rw [Res.bind_eq_ok] at h
    obtain ⟨⟨es', s2⟩, h2, h⟩ := h
    cases h
    have hp := processEvent_post (pau_post env fuel) spec md module i hin _ _ h1
    obtain ⟨k1, k2⟩ := processEvent_known h1
    obtain ⟨c1, c2, c3⟩ := ih (i + 1) module' s1 _ es' hp.inB h2
    refine ⟨by rw [List.length_cons, c1], ?_, .cons i module module' e es' st s1 _ h1 k1 hp.2.1 hp.1 k2 c3⟩
    rw [List.map_cons, List.range'_succ, k1, c2]

/-- C45 in full: whenever a buffer that announces `n` events is decoded, there are `n` of them, numbered from 0, each starting where
the previous one stopped, and each with an index known to the metadata. -/
def C45Claim : Prop := ∀ (env : Env) (fuel : Nat) (spec : Int) (md : MD) (module data : Str) (es : List Event) (st : St) (n k : Nat),
  LenOK env ⟨module, spec, some md⟩ → compactAt data = some (n, k) → data.length < 2 ^ 63 →
  decodeEvents env fuel spec md module data = .ok (es, st) →
  es.length = n ∧ es.map (·.idx) = List.range n ∧ Chain (pau env fuel) spec md 0 es ⟨⟨data, k⟩, []⟩ st

/-- C45 for counts below 2^63. -/
theorem C45_partial (env : Env) (fuel : Nat) (spec : Int) (md : MD) (module data : Str) (es : List Event) (st : St) (n k : Nat)
    (hl : LenOK env ⟨module, spec, some md⟩) (hc : compactAt data = some (n, k)) (hd : data.length < 2 ^ 63) (hn : n < 2 ^ 63)
    (h : decodeEvents env fuel spec md module data = .ok (es, st)) :
    es.length = n ∧ es.map (·.idx) = List.range n ∧ Chain (pau env fuel) spec md 0 es ⟨⟨data, k⟩, []⟩ st := by
  obtain ⟨x, r, rest, e1, e2, e3, e4⟩ := compactAt_some hc
  obtain ⟨s, hs⟩ := hl
  unfold decodeEvents at h
  cases fuel with
  | zero => cases h
  | succ m =>
    rw [pau_resolves m _ hs] at h
    have hlen : ([] : Str).length + (x :: r).length + rest.length < 2 ^ 63 := by
      rw [e1] at hd
      simp only [List.length_append, List.length_nil] at hd ⊢
      omega
    have := compactU32_at x r e2 [] rest [] hlen
    simp only [List.nil_append, List.length_nil, Nat.zero_add, List.append_nil, ← e1] at this
    change (processCompactU32 ⟨⟨data, 0⟩, []⟩ >>= _) = _ at h
    rw [this, u32Value_wrap e2 e4 (by omega), wrap64_nat hn, Res.ok_bind] at h
    simp only [asInt, Res.ok_bind, Int.toNat_natCast] at h
    rw [List.length_cons, ← e3] at h
    have hin : InB ⟨⟨data, k⟩, []⟩ := by
      show k ≤ data.length
      rw [e1, e3]; simp
    have := processEvents_chain n 0 [] _ st es hin h
    rwa [← List.range_eq_range'] at this

/-- A count of 2^63 or more wraps around to a negative or a small number: 2^64 announced events give none. -/
theorem C45_claim_false : ¬ C45Claim := by
  intro h
  have := (h (baseEnv dummyExt) 3 0 nestMD [] [23, 0, 0, 0, 0, 0, 0, 0, 0, 1] [] ⟨⟨[23, 0, 0, 0, 0, 0, 0, 0, 0, 1], 10⟩, []⟩ (2 ^ 64) 10
    ⟨[], by unfold Resolves; kernel_rfl⟩ (by decide) (by decide) (by kernel_rfl)).1
  exact absurd this (by decide)

theorem records_then_bad {env : Env} {spec : Int} {md : MD} (hu : ∀ m, ∃ s, Resolves env m spec b!"U32" .u32 s) {pb suf : Str} {phase : Nat} {x : Int}
  (hp : IsPhase pb phase x) {i j : UInt8} (hx : md.eventIndex (_root_.Spec.hexText [i, j]) = none) (n m : Nat) :
  ∀ (rs : List (Str × Event × List Str)) (k : Nat) (module pre : Str) (cs : List Str), rs.length < n →
  (∀ r ∈ rs, ∀ module, DecAt (processEvent (pau env (m + 1)) spec md module r.2.1.idx) r.1 (r.2.1, r.2.1.moduleId) r.2.2) →
  rs.map (·.2.1.idx) = List.range' k rs.length → pre.length + (rs.map (·.1)).flatten.length + pb.length + 2 + suf.length < 2 ^ 63 →
  processEvents (pau env (m + 1)) spec md k n module ⟨⟨pre ++ ((rs.map (·.1)).flatten ++ (pb ++ ([i, j] ++ suf))), pre.length⟩, cs⟩ = .panic := by
  intro rs
  induction rs generalizing n with
  | nil =>
    intro k module pre cs hn _ _ hlen
    obtain ⟨n, rfl⟩ : ∃ q, n = q + 1 := ⟨n - 1, by simp at hn; omega⟩
    rw [processEvents]
    unfold processEvent
    obtain ⟨s, hs⟩ := hu module
    have d1 := decAt_phase (ctx := ⟨module, spec, some md⟩) hs hp m pre ([i, j] ++ suf) cs
      (by simp only [List.length_append, List.length_cons, List.length_nil]; simp at hlen; omega)
    have d2 := nextBytes_at (pre ++ pb) [i, j] suf cs 2 rfl
      (by simp only [List.length_append, List.length_cons, List.length_nil]; simp at hlen; omega)
    simp only [List.append_assoc, List.length_append, List.append_nil] at d1 d2
    simp only [List.map_nil, List.flatten_nil, List.nil_append]
    rw [d1, Res.ok_bind]
    dsimp only
    rw [d2, Res.ok_bind]
    rw [← bytesToHex_eq_spec] at hx
    dsimp only
    rw [hx]
    rfl
  | cons r rs ih =>
    intro k module pre cs hn h hi hlen
    obtain ⟨n, rfl⟩ : ∃ q, n = q + 1 := ⟨n - 1, by simp at hn; omega⟩
    rw [processEvents]
    rw [List.map_cons, List.length_cons, List.range'_succ] at hi
    obtain ⟨hi1, hi2⟩ := List.cons.inj hi
    have d1 := h r (by simp) module
    rw [hi1] at d1
    simp only [List.map_cons, List.flatten_cons, List.length_append] at hlen
    have e1 := d1 pre ((rs.map (·.1)).flatten ++ (pb ++ ([i, j] ++ suf))) cs
      (by simp only [List.length_append, List.length_cons, List.length_nil]; omega)
    have e2 := ih n (k + 1) r.2.1.moduleId (pre ++ r.1) (cs ++ r.2.2) (by simp at hn; omega) (fun y hy => h y (by simp [hy])) hi2
      (by simp only [List.length_append]; omega)
    simp only [List.map_cons, List.flatten_cons, List.append_assoc, List.length_append] at e1 e2 ⊢
    rw [e1, Res.ok_bind]
    dsimp only
    rw [e2]
    rfl

/-- An index that is not in the metadata makes the whole decoding panic, after any number of good records. -/
theorem C45_unknown_refused (env : Env) (spec : Int) (md : MD) (module : Str) (hl : LenOK env ⟨module, spec, some md⟩)
    (hu : ∀ m, ∃ s, Resolves env m spec b!"U32" .u32 s) (rs : List (Str × Event × List Str))
    (h : ∀ r ∈ rs, IsRecord env spec md r.1 r.2.1 r.2.2) (hi : rs.map (·.2.1.idx) = List.range rs.length) (c pb suf : Str) (phase : Nat) (x : Int)
    (hp : IsPhase pb phase x) (i j : UInt8) (hx : md.eventIndex (_root_.Spec.hexText [i, j]) = none) (n : Nat) (hn : rs.length < n) (hn63 : n < 2 ^ 63)
    (hc : _root_.Spec.IsCompact n c) (hlen : c.length + (rs.map (·.1)).flatten.length + pb.length + 2 + suf.length < 2 ^ 63) :
    ∃ N, ∀ fuel, N ≤ fuel →
      decodeEvents env fuel spec md module (c ++ ((rs.map (·.1)).flatten ++ (pb ++ ([i, j] ++ suf)))) = .panic := by
  obtain ⟨N1, h1⟩ := decAt_all hu rs h
  obtain ⟨N2, h2⟩ := len_decodes hl hn63 hc
  refine ⟨max (max N1 N2) 1, fun f hle => ?_⟩
  obtain ⟨m, rfl⟩ : ∃ m, f = m + 1 := ⟨f - 1, by omega⟩
  have e1 := h2 (m + 1) (by omega) [] ((rs.map (·.1)).flatten ++ (pb ++ ([i, j] ++ suf))) []
    (by simp only [List.length_append, List.length_nil, List.length_cons]; omega)
  unfold decodeEvents
  simp only [List.nil_append, List.length_nil, Nat.zero_add, List.append_nil] at e1
  rw [e1, Res.ok_bind]
  show processEvents _ _ _ 0 ((n : Int).toNat) [] _ = _
  rw [Int.toNat_natCast]
  exact records_then_bad hu hp hx n m rs 0 [] c [] hn (h1 (m + 1) (by omega)) (by rw [hi, List.range_eq_range']) hlen

/-- Metadata with one event `happened(u8)`. -/
def evMD : MD where
  version := 14
  callIndex := fun _ => none
  eventIndex := fun k => if k = b!"0301" then some ⟨b!"happened", b!"M", [b!"u8"], [b!"who"], [b!"u8"]⟩ else none
  extrinsic := none

theorem base_u32 (m : Str) (spec : Int) : Resolves (baseEnv dummyExt) m spec b!"U32" .u32 [] := by
  unfold Resolves
  have hn : NotOverridden m b!"U32" := by
    intro row hr _ p hp
    have : ∀ row ∈ typesModules, ∀ p ∈ row.2, ¬ SameName p.1 b!"U32" := by decide +kernel
    exact this row hr p hp
  rw [getCodecClass_plain _ _ (by decide) (by decide) (moduleType_notOverridden hn)]
  show Res.ok (Option.map _ (Option.or none ((baseEnv dummyExt).reg b!"u32"))) = _
  rw [show (baseEnv dummyExt).reg b!"u32" = some .u32 by kernel_rfl]
  rfl

/-- A record of `happened(7)` by extrinsic 2, as event number `i`. -/
def evOf (i : Nat) : Event := ⟨i, 0, 2, b!"0301", b!"M", b!"happened", [(b!"u8", b!"who", .int 7)], [], b!"07"⟩

/-- Two such records behind their count. -/
example : ∃ N, ∀ fuel, N ≤ fuel → decodeEvents (baseEnv dummyExt) fuel 0 evMD [] [8, 0, 2, 0, 0, 0, 3, 1, 7, 0, 0, 2, 0, 0, 0, 3, 1, 7, 0] =
    .ok ([evOf 0, evOf 1], ⟨⟨[8, 0, 2, 0, 0, 0, 3, 1, 7, 0, 0, 2, 0, 0, 0, 3, 1, 7, 0], 19⟩, []⟩) := by
  have hr : ∀ i, IsRecord (baseEnv dummyExt) 0 evMD [0, 2, 0, 0, 0, 3, 1, 7, 0] (evOf i) [] := by
    intro i
    refine ⟨[0, 2, 0, 0, 0], [0], 3, 1, ⟨b!"happened", b!"M", [b!"u8"], [b!"who"], [b!"u8"]⟩, [(.int 7, [7], [])], rfl,
      .inl ⟨2, by decide, by decide, rfl, rfl⟩, rfl, ?_, ?_, rfl, rfl, rfl, rfl, rfl, rfl⟩
    · refine .cons ?_ .nil
      exact C07_decode _ _ _ 1 7 [] (by decide) (by decide) (by unfold Resolves; kernel_rfl)
    · unfold IsTopics
      rw [if_pos (by decide)]
      refine decodes_of_decAt (cls := .vec []) (sub := b!"Hash") (by unfold Resolves; kernel_rfl) ?_
      obtain ⟨N, h⟩ := len_decodes (env := baseEnv dummyExt) (ctx := ⟨b!"M", 0, some evMD⟩) (n := 0) (b := [0])
        ⟨[], by unfold Resolves; kernel_rfl⟩ (by decide) (.inl (by decide))
      refine ⟨N, fun n hn => ?_⟩
      show DecAt (processVec _ _ _) _ _ _
      unfold processVec
      exact DecAt.last (h n hn) (fun _ => rfl)
  exact C45_decodes _ 0 evMD [] ⟨[], by unfold Resolves; kernel_rfl⟩ (fun m => ⟨[], base_u32 m 0⟩)
    [([0, 2, 0, 0, 0, 3, 1, 7, 0], evOf 0, []), ([0, 2, 0, 0, 0, 3, 1, 7, 0], evOf 1, [])]
    (by intro r h; simp only [List.mem_cons, List.not_mem_nil, or_false] at h; rcases h with rfl | rfl <;> exact hr _) rfl [8] []
    (.inl (by decide)) (by decide) (by decide)

/-- The buffer ends after one of two announced records: refused, since the empty index is unknown. -/
example : decodeEvents (baseEnv dummyExt) 9 0 evMD [] [8, 0, 2, 0, 0, 0, 3, 1, 7, 0] = .panic := by kernel_rfl

end ScaleGo
