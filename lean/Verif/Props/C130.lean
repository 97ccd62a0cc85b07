import Verif.Props.C115
import Verif.Props.C121
import Verif.Props.C43
import Verif.Model.ToMap

/-! # C130: an extrinsic as a map

`ToMap` (extrinsic.go:316-325) writes a decoded extrinsic as JSON and reads it back into a map.  It is the nil map exactly if a
floating-point number that is not finite occurs in a decoded part; otherwise it has the 18 fields. -/

namespace ScaleGo

namespace Spec

/-- The bits of a number that is not finite: the exponent is all ones (IEEE 754, 4 or 8 bytes). -/
def NotFinite (w bits : Nat) : Prop := if w = 8 then bits / 2 ^ 52 % 2 ^ 11 = 2 ^ 11 - 1 else bits / 2 ^ 23 % 2 ^ 8 = 2 ^ 8 - 1

/-- All floating-point numbers in the value are finite. -/
def AllFinite (v : Val) : Prop := ∀ w bits, Occurs (.float w bits) v → ¬ NotFinite w bits

/-- Nothing in the value is of a Go type of its own, except the arguments of calls. -/
def Ordinary (v : Val) : Prop := (∀ i p a, ¬ Occurs (.boxCall i p a) v) ∧ ∀ t, ¬ Occurs (.other t) v

/-- The digits of base 64 (RFC 4648, table 1). -/
def digits64 : Str := b!"ABCDEFGHIJKLMNOPQRSTUVWXYZabcdefghijklmnopqrstuvwxyz0123456789+/"

/-- The text is the base 64 of the bytes (RFC 4648, section 4): four digits of 6 bits for three bytes, `=` for digits that are missing. -/
inductive IsBase64 : Str → Str → Prop
  | nil : IsBase64 [] []
  | one {a p q : UInt8} {i j : Nat} : digits64[i]? = some p → digits64[j]? = some q → a.toNat * 2 ^ 4 = i * 2 ^ 6 + j → IsBase64 [a] [p, q, 61, 61]
  | two {a b p q r : UInt8} {i j k : Nat} : digits64[i]? = some p → digits64[j]? = some q → digits64[k]? = some r →
      (a.toNat * 2 ^ 8 + b.toNat) * 2 ^ 2 = i * 2 ^ 12 + j * 2 ^ 6 + k → IsBase64 [a, b] [p, q, r, 61]
  | three {a b c p q r s : UInt8} {i j k l : Nat} {bs ts : Str} : digits64[i]? = some p → digits64[j]? = some q → digits64[k]? = some r → digits64[l]? = some s →
      a.toNat * 2 ^ 16 + b.toNat * 2 ^ 8 + c.toNat = i * 2 ^ 18 + j * 2 ^ 12 + k * 2 ^ 6 + l → IsBase64 bs ts →
      IsBase64 (a :: b :: c :: bs) (p :: q :: r :: s :: ts)

mutual
/-- What may come back of a value that was written as JSON: integers as doubles, exactly if they are below 2^53; valid texts as they
are; bytes as base 64; decimals as their numerals; lists and maps member by member, the arguments of calls as maps. -/
inductive Back : Val → Val → Prop
  | nil : Back .nil .nil
  | bool {b : Bool} : Back (.bool b) (.bool b)
  | int {i : Int} {d : Nat} : (i.natAbs < 2 ^ 53 → _root_.Spec.IsDouble d i) → Back (.int i) (.float 8 d)
  | sint {w : Nat} {i : Int} {d : Nat} : (i.natAbs < 2 ^ 53 → _root_.Spec.IsDouble d i) → Back (.sint w i) (.float 8 d)
  | uint {w n d : Nat} : (n < 2 ^ 53 → _root_.Spec.IsDouble d n) → Back (.uint w n) (.float 8 d)
  | big {i : Int} {d : Nat} : (i.natAbs < 2 ^ 53 → _root_.Spec.IsDouble d i) → Back (.big i) (.float 8 d)
  | float {w b d : Nat} : (w = 8 → d = b) → ¬ NotFinite w b → Back (.float w b) (.float 8 d)
  | str {s t : Str} : (utf8Valid s = true → t = s) → Back (.str s) (.str t)
  | bytes {s t : Str} : IsBase64 s t → Back (.bytes s) (.str t)
  | dec {c e : Int} {t : Str} : (0 ≤ e → 0 ≤ c → _root_.Spec.IsNumeral t (c.toNat * 10 ^ e.toNat)) → Back (.dec c e) (.str t)
  | slice {l l' : List Val} : BackList l l' → Back (.slice l) (.slice l')
  | nilSlice : Back .nilSlice .nil
  | noStrs : Back (.strs []) .nil
  | strs {l : List Str} {l' : List Val} : BackList (l.map .str) l' → Back (.strs l) (.slice l')
  | map {m m' : List (Str × Val)} : BackMap m m' → Back (.map m) (.map m')
  | noParams : Back (.params []) .nil
  | params {l : List (Str × Str × Val)} {l' : List Val} :
      BackList (l.map fun p => .map [(b!"name", .str p.1), (b!"type", .str p.2.1), (b!"value", p.2.2)]) l' → Back (.params l) (.slice l')

inductive BackList : List Val → List Val → Prop
  | nil : BackList [] []
  | cons {v w : Val} {l l' : List Val} : Back v w → BackList l l' → BackList (v :: l) (w :: l')

inductive BackMap : List (Str × Val) → List (Str × Val) → Prop
  | nil : BackMap [] []
  | cons {k k' : Str} {v w : Val} {l l' : List (Str × Val)} : (utf8Valid k = true → k' = k) → Back v w → BackMap l l' → BackMap ((k, v) :: l) ((k', w) :: l')
end

/-- The fields of an extrinsic under their JSON names (extrinsic.go:83-102), those of unsigned ones at their zero values; `tn`: the type
names of its parameters. -/
def fieldsOf (tn : Nat → Str) (hash : Str) (x : Extrinsic) : List (Str × Val) :=
  let params := x.params.mapIdx fun i p => Val.map [(b!"name", .str p.1), (b!"type", .str p.2.1), (b!"type_name", .str (tn i)), (b!"value", p.2.2)]
  let common (addressType : Str) (tip ext account signer : Val) (signature : Str) (raw : Val) (nonce : Int) (era : Str) (version : Int) : List (Str × Val) :=
    [(b!"version_info", .str x.version), (b!"extrinsic_length", .int x.length), (b!"address_type", .str addressType), (b!"tip", tip),
      (b!"signed_extensions", ext), (b!"account_id", account), (b!"signer", signer), (b!"signature", .str signature), (b!"signature_raw", raw),
      (b!"nonce", .int nonce), (b!"era", .str era), (b!"extrinsic_hash", .str hash), (b!"call_module_function", .str x.callFunction),
      (b!"call_code", .str x.callCode), (b!"call_module", .str x.callModule), (b!"params", if x.params = [] then .nilSlice else .slice params),
      (b!"params_raw", .str x.paramsRaw), (b!"transaction_extension_version", .int version)]
  match x.signed with
  | none => common [] (.dec 0 0) .nil .nil .nil [] .nil 0 [] 0
  | some s => common (addressOf s.signer).1 (.dec s.tip.1 s.tip.2) (.map s.extensions) (addressOf s.signer).2 s.signer s.signature s.signatureRaw s.nonce s.era
      s.extVersion

end Spec

open ScaleGo.Spec (Back BackList IsBase64 digits64 BackMap fieldsOf Occurs NotFinite AllFinite Ordinary DataAsks)

/-! ## Properties of all decoded values -/

/-- A property of values that holds for all the decoder puts together from values that have it. -/
class Builds (P : Val → Prop) : Prop where
  nil : P .nil
  bool : ∀ {b}, P (.bool b)
  int : ∀ {i}, P (.int i)
  uint : ∀ {w n}, P (.uint w n)
  float : ∀ {w n}, P (.float w n)
  str : ∀ {s}, P (.str s)
  bytes : ∀ {s}, P (.bytes s)
  dec : ∀ {c e}, P (.dec c e)
  big : ∀ {i}, P (.big i)
  nilSlice : P .nilSlice
  strs : ∀ {l}, P (.strs l)
  slice : ∀ {l : List Val}, (∀ x ∈ l, P x) → P (.slice l)
  map : ∀ {l : List (Str × Val)}, (∀ p ∈ l, P p.2) → P (.map l)
  params : ∀ {l : List (Str × Str × Val)}, (∀ p ∈ l, P p.2.2) → P (.params l)

/-- Steps whose values are not put together from others. -/
macro "plain_steps" : tactic => `(tactic| repeat' with_reducible first
  | exact Yields.panic
  | exact Yields.ok Builds.nil
  | exact Yields.ok Builds.str
  | exact Yields.ok Builds.int
  | exact Yields.ok Builds.uint
  | exact Yields.ok Builds.float
  | exact Yields.ok Builds.dec
  | exact Yields.ok Builds.big
  | exact Yields.ok Builds.bool
  | exact Yields.ok Builds.bytes
  | exact Yields.ok Builds.strs
  | (refine Yields.bind ?_; intro _ _; try dsimp only)
  | split)

section
variable {P : Val → Prop} [Builds P]

theorem builds_mkSlice {l : List Val} (h : ∀ x ∈ l, P x) : P (mkSlice l) := by
  unfold mkSlice
  split
  · exact Builds.nilSlice
  · exact Builds.slice h

variable {rec : Rec} {ctx : Ctx}

theorem procPairs_builds {ext : Ext} {parts : List Str} (h : ∀ a t r, parts = a :: t :: r → ∀ st, Yields (P) (rec ctx t st)) :
    ∀ (n : Nat) (st : St), Yields (fun vs => vs.length = n ∧ ∀ x ∈ vs, P x) (procPairs ext rec ctx parts n st)
  | 0, st => .ok (by simp)
  | n + 1, st => by
    rw [procPairs]
    refine .bind fun ⟨k, s0⟩ e0 => ?_
    dsimp only
    split
    · rename_i a t r
      refine .bind fun ⟨v, s1⟩ e1 => .bind fun ⟨vs, s2⟩ e2 => .ok ?_
      have h1 := h a t r rfl _ _ _ e1
      have h2 := procPairs_builds h n _ _ _ e2
      refine ⟨by simp [h2.1], ?_⟩
      simp only [List.mem_cons, forall_eq_or_imp]
      exact ⟨Builds.map (by simpa using h1), h2.2⟩
    · exact .panic

theorem vec_builds {u : Str} (h : ∀ st, Yields P (rec ctx u st)) (st : St) : Yields P (processVec rec ctx u st) := by
  unfold processVec
  refine .bind fun ⟨v, s1⟩ e1 => .bind fun i e2 => ?_
  split
  · exact .panic
  · refine .bind fun ⟨vs, s2⟩ e3 => .ok ?_
    exact builds_mkSlice (procN_yields h _ _ _ _ e3).2

end

theorem process_builds {P : Val → Prop} [Builds P] {env : Env} {rec : Rec} {ctx : Ctx} {cls : Cls} {s : Str}
    (h : ∀ c u, DataAsks env ctx cls s c u → ∀ st, Yields P (rec c u st)) (st : St) : Yields P (process env.ext rec ctx cls s st) := by
  cases cls with
  | null => exact .ok Builds.nil
  | empty => exact .ok Builds.str
  | u8 => unfold process; dsimp only; unfold processU8; try dsimp only; plain_steps
  | u16 => unfold process; dsimp only; unfold processUint; try dsimp only; plain_steps
  | u32 => unfold process; dsimp only; unfold processUint; try dsimp only; plain_steps
  | u64 => unfold process; dsimp only; unfold processUint; try dsimp only; plain_steps
  | u128 => unfold process; dsimp only; unfold processU128; try dsimp only; plain_steps
  | u256 => unfold process; dsimp only; unfold processU256; try dsimp only; plain_steps
  | float64 => unfold process; dsimp only; unfold processFloat; split <;> plain_steps
  | float32 => unfold process; dsimp only; unfold processFloat; split <;> plain_steps
  | hash n => unfold process; dsimp only; unfold processHash; try dsimp only; plain_steps
  | address => unfold process; dsimp only; unfold processAddress; try dsimp only; plain_steps
  | genericAddress => unfold process; dsimp only; unfold processGenericAddress; try dsimp only; plain_steps
  | option t =>
    unfold process; dsimp only; unfold processOption; try dsimp only
    refine .bind fun ⟨b, s1⟩ e1 => ?_
    dsimp only
    split
    · rename_i hc
      split
      · exact .ok Builds.bool
      · rename_i hb
        exact h ctx _ ⟨rfl, rfl, hc.1, hb⟩ s1
    · exact .ok Builds.nil
  | struct tm =>
    unfold process; dsimp only; unfold processStruct; try dsimp only
    refine .bind fun ⟨m, s1⟩ e1 => .ok (Builds.map ?_)
    exact procFields_yields _ [] st (fun u hu => h ctx u ⟨rfl, hu⟩) (by simp) _ _ e1
  | enum vs tm =>
    unfold process; dsimp only; unfold processEnum; try dsimp only
    refine .bind fun ⟨b, s1⟩ e1 => ?_
    dsimp only
    have hv : Yields (P) (match vs[(b.headD 0).toNat]? with
        | some v => .ok (if v = [] then Val.nil else .str v, s1)
        | none => .panic) := by
      split
      · split
        · exact .ok Builds.nil
        · exact .ok Builds.str
      · exact .panic
    cases tm with
    | none => exact hv
    | some tm =>
      dsimp only
      split
      · exact .ok Builds.str
      · rename_i hcl
        cases ht : tm[(b.headD 0).toNat]? with
        | none => exact .panic
        | some p =>
          obtain ⟨name, sub⟩ := p
          dsimp only
          split
          · exact hv
          · rename_i hp
            have hsub : ∀ u ∈ variantAsks env.ext.rows sub, ∀ st, Yields (P) (rec ctx u st) :=
              fun u hm => h ctx u ⟨rfl, by simpa using hcl, _, List.mem_of_getElem? ht, hm⟩
            have hva : variantAsks env.ext.rows sub = match variantRows env.ext sub with
                | some l => rowTypes l
                | none => [sub] := by
              unfold variantAsks variantRows
              rw [if_neg hp]
              rfl
            rw [hva] at hsub
            cases hvr : variantRows env.ext sub with
            | none =>
              rw [hvr] at hsub
              refine .bind fun ⟨v, s2⟩ e2 => .ok (Builds.map ?_)
              simpa using hsub sub (by simp) _ _ _ e2
            | some rows =>
              rw [hvr] at hsub
              refine .bind fun ⟨m, s2⟩ e2 => .ok (Builds.map ?_)
              have := Builds.map (procRows_yields rows [] s1 hsub (by simp) _ _ e2)
              simpa using this
  | bytes => unfold process; dsimp only; unfold processBytes; try dsimp only; plain_steps
  | hexBytes => unfold process; dsimp only; unfold processHexBytes; try dsimp only; plain_steps
  | string => unfold process; dsimp only; unfold processBytes; try dsimp only; plain_steps
  | vec t => exact vec_builds (h ctx _ ⟨rfl, rfl⟩) st
  | boundedVec t => exact vec_builds (h ctx _ ⟨rfl, rfl⟩) st
  | authoritiesChange => exact vec_builds (h ctx _ ⟨rfl, rfl⟩) st
  | set vs bits => unfold process; dsimp only; unfold processSet; try dsimp only; plain_steps
  | compact t =>
    unfold process; dsimp only; unfold processCompact; try dsimp only
    refine .bind fun ⟨⟨l, cb⟩, s1⟩ e1 => ?_
    dsimp only
    split
    · exact .ok Builds.bytes
    · rename_i hne
      refine .bind fun ⟨v, s2⟩ e2 => .bind fun r e3 => .ok ?_
      have hv := h Ctx.fresh _ ⟨rfl, rfl, hne⟩ _ _ _ e2
      unfold compactDivide at e3
      dsimp only at e3
      split at e3
      all_goals first
        | (injection e3 with e3; subst e3; first | exact Builds.uint | exact Builds.dec | exact hv)
        | skip
      split at e3
      · injection e3 with e3
        subst e3
        exact Builds.dec
      · cases e3
  | compactU32 => unfold process; dsimp only; unfold processCompactU32; try dsimp only; plain_steps
  | compactMoment => unfold process; dsimp only; unfold processCompactMoment; try dsimp only; plain_steps
  | bool => unfold process; dsimp only; unfold processBool; try dsimp only; plain_steps
  | moment => unfold process; dsimp only; unfold processMoment; try dsimp only; plain_steps
  | accountId => unfold process; dsimp only; unfold processAccountId; try dsimp only; plain_steps
  | call =>
    unfold process; dsimp only; unfold processCall; try dsimp only
    refine .bind fun ⟨b, s1⟩ e1 => ?_
    obtain ⟨m, sp, md⟩ := ctx
    dsimp only
    cases md with
    | none => exact .panic
    | some md =>
      dsimp only
      refine .bind fun ⟨ps, s2⟩ e2 => .ok (Builds.map ?_)
      have hp : P (.params ps) := Builds.params (procArgs_yields _ _ (fun u hu st => ?_) _ _ e2)
      · simpa using ⟨Builds.str, Builds.str, Builds.str, hp⟩
      · cases hk : md.callIndex (bytesToHex b) with
        | none =>
          rw [hk] at hu
          simp at hu
        | some e =>
          rw [hk] at hu
          exact h _ u ⟨md, _, e, rfl, hk, rfl, hu⟩ st
  | era => unfold process; dsimp only; unfold processEra; try dsimp only; plain_steps
  | balance => unfold process; dsimp only; unfold processBalance; try dsimp only; plain_steps
  | logDigest =>
    unfold process; dsimp only; unfold processLogDigest; try dsimp only
    refine .bind fun ⟨b, s1⟩ e1 => ?_
    dsimp only
    cases ht : logDigestValues[(b.headD 0).toNat]? with
    | none => exact .panic
    | some t =>
      dsimp only
      refine .bind fun ⟨v, s2⟩ e2 => .ok (Builds.map ?_)
      simpa using ⟨Builds.str, h ctx t ⟨rfl, List.mem_of_getElem? ht⟩ _ _ _ e2⟩
  | lockIdentifier => unfold process; dsimp only; unfold processHash; try dsimp only; plain_steps
  | ecdsaSignature => unfold process; dsimp only; unfold processHash; try dsimp only; plain_steps
  | ethereumAddress => unfold process; dsimp only; unfold processEthereumAddress; try dsimp only; plain_steps
  | data =>
    unfold process; dsimp only; unfold processData; try dsimp only
    refine .bind fun ⟨b, s1⟩ e1 => ?_
    dsimp only
    split
    · exact .ok (Builds.map (by simpa using Builds.nil))
    · split
      · exact .bind fun ⟨d, s2⟩ _ => .ok (Builds.map (by simpa using Builds.str))
      · split
        · split
          · rename_i n t ht
            refine .bind fun ⟨v, s2⟩ e2 => .ok (Builds.map ?_)
            simpa using h ctx t ⟨rfl, _, List.mem_of_getElem? ht, rfl⟩ _ _ _ e2
          · exact .panic
        · exact .ok Builds.nil
  | opaqueCall =>
    unfold process; dsimp only; unfold processOpaqueCall; try dsimp only
    refine .bind fun ⟨v, s1⟩ e1 => ?_
    dsimp only
    split
    · refine .bind fun ⟨r, s2⟩ e2 => .ok ?_
      exact h _ _ ⟨rfl, rfl⟩ _ _ _ e2
    · exact .panic
  | bitVec => unfold process; dsimp only; unfold processBitVec; try dsimp only; plain_steps
  | lookupSource => unfold process; dsimp only; unfold processLookupSource; try dsimp only; plain_steps
  | btreeMap t =>
    unfold process; dsimp only; unfold processBTreeMap; try dsimp only
    refine .bind fun ⟨v, s1⟩ e1 => .bind fun i e2 => ?_
    split
    · exact .panic
    · refine .bind fun ⟨vs, s2⟩ e3 => .ok ?_
      obtain ⟨h1, h2⟩ := procPairs_builds (fun a t r e => h ctx t ⟨rfl, .inr ⟨a, r, e⟩⟩) _ _ _ _ e3
      exact builds_mkSlice h2
  | box t => exact h ctx _ ⟨rfl, rfl⟩ st
  | result t =>
    unfold process; dsimp only; unfold processResult; try dsimp only
    refine .bind fun ⟨b, s1⟩ e1 => ?_
    dsimp only
    split
    · rename_i a e hs
      split
      · refine .bind fun ⟨v, s2⟩ e2 => .ok (Builds.map ?_)
        simpa using h ctx a ⟨rfl, a, e, hs, .inl rfl⟩ _ _ _ e2
      · split
        · refine .bind fun ⟨v, s2⟩ e2 => .ok (Builds.map ?_)
          simpa using h ctx e ⟨rfl, a, e, hs, .inr rfl⟩ _ _ _ e2
        · exact .panic
    · exact .panic
  | wrapperOpaque t =>
    unfold process; dsimp only; unfold processWrapper; try dsimp only
    exact .bind fun ⟨_, s1⟩ _ => h ctx _ ⟨rfl, rfl⟩ s1
  | range t =>
    unfold process; dsimp only; unfold processRange; try dsimp only
    refine .bind fun ⟨a, s1⟩ e1 => .bind fun ⟨b, s2⟩ e2 => .ok (Builds.map ?_)
    simpa using ⟨h ctx _ ⟨rfl, .inl rfl⟩ _ _ _ e1, h ctx _ ⟨rfl, .inr rfl⟩ _ _ _ e2⟩
  | fixedU64 => unfold process; dsimp only; unfold processFixedU64; try dsimp only; plain_steps
  | fixedI128 => unfold process; dsimp only; unfold processFixedI128; try dsimp only; plain_steps
  | intFixed n => unfold process; dsimp only; unfold processIntFixed; try dsimp only; plain_steps
  | fixedU8 n => unfold process; dsimp only; unfold processFixedU8; try dsimp only; plain_steps
  | fixedArray n t =>
    unfold process; dsimp only; unfold processFixedArray; try dsimp only
    split
    · rename_i hn
      split
      · plain_steps
      · rename_i hf
        refine .bind fun ⟨vs, s1⟩ e1 => .ok ?_
        obtain ⟨h1, h2⟩ := procN_yields (h ctx t ⟨rfl, rfl, hn, by simpa using hf⟩) _ _ _ _ e1
        exact Builds.slice h2
    · plain_steps

theorem pau_builds {P : Val → Prop} [Builds P] {env : Env} : ∀ (n : Nat) (c : Ctx) (u : Str) (st : St), Yields P (pau env n c u st)
  | 0, _, _, _ => by
    intro v st e
    cases e
  | n + 1, c, u, st => by
    rw [pau]
    refine .bind fun r e => ?_
    match r with
    | none => exact .panic
    | some (cls, s) => exact process_builds (fun c' u' _ st' => pau_builds n c' u' st') st

/-! ## The parts of a decoded extrinsic -/

/-- All values in a decoded extrinsic have the property. -/
def OfExtrinsic (P : Val → Prop) (x : Extrinsic) : Prop :=
  (∀ s, x.signed = some s → P s.signer ∧ P s.signatureRaw ∧ ∀ p ∈ s.extensions, P p.2) ∧ ∀ p ∈ x.params, P p.2.2

section
variable {P : Val → Prop} {rec : Rec} {ctx : Ctx} (hr : ∀ c u st, Yields P (rec c u st))
include hr

theorem readConfigured_yields (ids : List Str) : ∀ (l : List (Str × List (Str × Str))) (acc : List (Str × Val)) (st : St), (∀ p ∈ acc, P p.2) →
    Yields (fun m => ∀ p ∈ m, P p.2) (readConfigured rec ctx ids l acc st)
  | [], acc, st, ha => .ok ha
  | (n, fs) :: rest, acc, st, ha => by
    rw [readConfigured]
    split
    · refine .bind fun ⟨a, s1⟩ e1 => ?_
      exact readConfigured_yields ids rest a s1 (procFields_yields fs acc st (fun u _ st => hr _ _ _) ha _ _ e1)
    · exact readConfigured_yields ids rest acc st ha

theorem readMetaExts_yields (ext : Ext) (check : List Str) : ∀ (l : List (Str × Str)) (tip : Int × Int) (acc : List (Str × Val)) (st : St), (∀ p ∈ acc, P p.2) →
    Yields (fun r => ∀ p ∈ r.2, P p.2) (readMetaExts ext rec ctx check l tip acc st)
  | [], tip, acc, st, ha => .ok ha
  | (n, t) :: rest, tip, acc, st, ha => by
    rw [readMetaExts]
    split
    · split
      · exact .bind fun ⟨d, s1⟩ e1 => readMetaExts_yields ext check rest d acc s1 ha
      · exact .bind fun ⟨v, s1⟩ e1 => readMetaExts_yields ext check rest tip _ s1 (mapSet_all (hr _ _ _ _ _ e1) ha)
    · exact readMetaExts_yields ext check rest tip acc st ha

theorem readExts4_yields (ext : Ext) (md : MD) (opt : ExtOpt) (tip : Int × Int) (st : St) :
    Yields (fun r => ∀ p ∈ r.2, P p.2) (readExts4 ext rec ctx md opt tip st) := by
  unfold readExts4
  split
  · split
    · exact .panic
    · refine .bind fun ⟨a, s1⟩ e1 => .ok ?_
      exact readConfigured_yields hr _ _ _ _ (by simp) _ _ e1
  · split
    · split
      · exact .panic
      · exact readMetaExts_yields hr _ _ _ _ _ _ (by simp)
    · exact .ok (by simp)

theorem readSigned_yields (env : Env) (md : MD) (opt : ExtOpt) (v : Str) (st : St) :
    Yields (fun o => ∀ s, o = some s → P s.signer ∧ P s.signatureRaw ∧ ∀ p ∈ s.extensions, P p.2) (readSigned env rec ctx md opt v st) := by
  unfold readSigned
  split
  · exact .ok (by simp)
  · split
    · refine .bind fun ⟨s, s1⟩ e1 => .ok ?_
      rintro _ ⟨⟩
      revert e1
      suffices h : Yields (fun s : Signed => P s.signer ∧ P s.signatureRaw ∧ ∀ p ∈ s.extensions, P p.2) (readSigned4 env rec ctx md opt st) from
        fun e1 => h _ _ e1
      unfold readSigned4
      exact .bind fun ⟨a, s1⟩ e1 => .bind fun ⟨b, s2⟩ e2 => .bind fun sg _ => .bind fun ⟨c, s3⟩ _ => .bind fun era _ => .bind fun ⟨d, s4⟩ _ =>
        .bind fun nonce _ => .bind fun ⟨tip, s5⟩ _ => .bind fun ⟨⟨tip', exts⟩, s6⟩ e6 =>
          .ok ⟨hr _ _ _ _ _ e1, hr _ _ _ _ _ e2, readExts4_yields hr _ _ _ _ _ _ _ e6⟩
    · split
      · refine .bind fun ⟨s, s1⟩ e1 => .ok ?_
        rintro _ ⟨⟩
        revert e1
        suffices h : Yields (fun s : Signed => P s.signer ∧ P s.signatureRaw ∧ ∀ p ∈ s.extensions, P p.2) (readSigned5 env rec ctx md opt st) from
          fun e1 => h _ _ e1
        unfold readSigned5
        refine .bind fun ⟨a, s1⟩ e1 => .bind fun ⟨b, s2⟩ e2 => .bind fun ⟨ev, s3⟩ _ => .bind fun ev' _ => .bind fun sg _ => .bind fun ⟨c, s4⟩ _ =>
          .bind fun era _ => .bind fun ⟨d, s5⟩ _ => .bind fun nonce _ => .bind fun ⟨⟨tip', exts⟩, s6⟩ e6 => .ok ⟨hr _ _ _ _ _ e1, hr _ _ _ _ _ e2, ?_⟩
        revert e6
        suffices h : ∀ st, Yields (fun r : (Int × Int) × List (Str × Val) => ∀ p ∈ r.2, P p.2) (readExts5 env.ext rec ctx md opt st) from fun e6 => h _ _ _ e6
        intro st
        unfold readExts5
        split
        · exact .panic
        · exact readMetaExts_yields hr _ _ _ _ _ _ (by simp)
      · exact .panic

theorem processExtrinsic_yields (env : Env) (md : MD) (opt : ExtOpt) (st : St) : Yields (OfExtrinsic P) (processExtrinsic env rec md opt st) := by
  unfold processExtrinsic
  refine .bind fun ⟨l, s1⟩ _ => .bind fun ⟨b, s2⟩ _ => .bind fun ⟨s, s3⟩ e3 => .bind fun ⟨⟨idx, e, ps, raw⟩, s4⟩ e4 => .ok ⟨?_, ?_⟩
  · exact readSigned_yields hr _ _ _ _ _ _ _ e3
  · revert e4
    suffices h : Yields (fun r : Str × CallEntry × List (Str × Str × Val) × Str => ∀ p ∈ r.2.2.1, P p.2.2) (readCall rec ⟨opt.module, opt.spec, some md⟩ md s3) from
      fun e4 => h _ _ e4
    unfold readCall
    refine .bind fun ⟨b, s1⟩ _ => ?_
    dsimp only
    split
    · exact .panic
    · split
      · exact .panic
      · exact .bind fun ⟨ps, s2⟩ e2 => .ok (procArgs_yields _ _ (fun u _ st => hr _ _ _) _ _ e2)

end

theorem decodeExtrinsic_builds {P : Val → Prop} [Builds P] {env : Env} {n : Nat} {md : MD} {opt : ExtOpt} {data : Str} {x : Extrinsic} {st : St}
    (h : decodeExtrinsic env n md opt data = .ok (x, st)) : OfExtrinsic P x :=
  processExtrinsic_yields (fun c u st => pau_builds n c u st) _ _ _ _ _ _ h

/-! ## What comes back of a value -/

theorem occurs_slice {u : Val} {l : List Val} (hu : ∀ l, u ≠ .slice l) : Occurs u (.slice l) ↔ ∃ x ∈ l, Occurs u x := by
  constructor
  · intro h
    cases h with
    | here => exact absurd rfl (hu l)
    | slice hx h => exact ⟨_, hx, h⟩
  · rintro ⟨x, hx, h⟩
    exact .slice hx h

theorem occurs_map {u : Val} {l : List (Str × Val)} (hu : ∀ l, u ≠ .map l) : Occurs u (.map l) ↔ ∃ p ∈ l, Occurs u p.2 := by
  constructor
  · intro h
    cases h with
    | here => exact absurd rfl (hu l)
    | map hx h => exact ⟨_, hx, h⟩
  · rintro ⟨x, hx, h⟩
    exact .map hx h

theorem occurs_params {u : Val} {l : List (Str × Str × Val)} (hu : ∀ l, u ≠ .params l) : Occurs u (.params l) ↔ ∃ p ∈ l, Occurs u p.2.2 := by
  constructor
  · intro h
    cases h with
    | here => exact absurd rfl (hu l)
    | params hx h => exact ⟨_, hx, h⟩
  · rintro ⟨x, hx, h⟩
    exact .params hx h

theorem ordinary_slice {l : List Val} : Ordinary (.slice l) ↔ ∀ x ∈ l, Ordinary x := by
  unfold Ordinary
  constructor
  · exact fun h x hx => ⟨fun i p a ho => h.1 i p a (.slice hx ho), fun t ho => h.2 t (.slice hx ho)⟩
  · intro h
    refine ⟨fun i p a ho => ?_, fun t ho => ?_⟩
    · obtain ⟨x, hx, ho⟩ := (occurs_slice (by simp)).mp ho
      exact (h x hx).1 i p a ho
    · obtain ⟨x, hx, ho⟩ := (occurs_slice (by simp)).mp ho
      exact (h x hx).2 t ho

theorem ordinary_map {l : List (Str × Val)} : Ordinary (.map l) ↔ ∀ x ∈ l, Ordinary x.2 := by
  unfold Ordinary
  constructor
  · exact fun h x hx => ⟨fun i p a ho => h.1 i p a (.map hx ho), fun t ho => h.2 t (.map hx ho)⟩
  · intro h
    refine ⟨fun i p a ho => ?_, fun t ho => ?_⟩
    · obtain ⟨x, hx, ho⟩ := (occurs_map (by simp)).mp ho
      exact (h x hx).1 i p a ho
    · obtain ⟨x, hx, ho⟩ := (occurs_map (by simp)).mp ho
      exact (h x hx).2 t ho

theorem ordinary_params {l : List (Str × Str × Val)} : Ordinary (.params l) ↔ ∀ x ∈ l, Ordinary x.2.2 := by
  unfold Ordinary
  constructor
  · exact fun h x hx => ⟨fun i p a ho => h.1 i p a (.params hx ho), fun t ho => h.2 t (.params hx ho)⟩
  · intro h
    refine ⟨fun i p a ho => ?_, fun t ho => ?_⟩
    · obtain ⟨x, hx, ho⟩ := (occurs_params (by simp)).mp ho
      exact (h x hx).1 i p a ho
    · obtain ⟨x, hx, ho⟩ := (occurs_params (by simp)).mp ho
      exact (h x hx).2 t ho

instance : Builds Ordinary where
  nil := ⟨by rintro _ _ _ ⟨⟩, by rintro _ ⟨⟩⟩
  bool := ⟨by rintro _ _ _ ⟨⟩, by rintro _ ⟨⟩⟩
  int := ⟨by rintro _ _ _ ⟨⟩, by rintro _ ⟨⟩⟩
  uint := ⟨by rintro _ _ _ ⟨⟩, by rintro _ ⟨⟩⟩
  float := ⟨by rintro _ _ _ ⟨⟩, by rintro _ ⟨⟩⟩
  str := ⟨by rintro _ _ _ ⟨⟩, by rintro _ ⟨⟩⟩
  bytes := ⟨by rintro _ _ _ ⟨⟩, by rintro _ ⟨⟩⟩
  dec := ⟨by rintro _ _ _ ⟨⟩, by rintro _ ⟨⟩⟩
  big := ⟨by rintro _ _ _ ⟨⟩, by rintro _ ⟨⟩⟩
  nilSlice := ⟨by rintro _ _ _ ⟨⟩, by rintro _ ⟨⟩⟩
  strs := ⟨by rintro _ _ _ ⟨⟩, by rintro _ ⟨⟩⟩
  slice := ordinary_slice.mpr
  map := ordinary_map.mpr
  params := ordinary_params.mpr

theorem finite_slice {l : List Val} : AllFinite (.slice l) ↔ ∀ x ∈ l, AllFinite x := by
  unfold AllFinite
  constructor
  · exact fun h x hx w b ho => h w b (.slice hx ho)
  · intro h w b ho
    obtain ⟨x, hx, ho⟩ := (occurs_slice (by simp)).mp ho
    exact h x hx w b ho

theorem finite_map {l : List (Str × Val)} : AllFinite (.map l) ↔ ∀ x ∈ l, AllFinite x.2 := by
  unfold AllFinite
  constructor
  · exact fun h x hx w b ho => h w b (.map hx ho)
  · intro h w b ho
    obtain ⟨x, hx, ho⟩ := (occurs_map (by simp)).mp ho
    exact h x hx w b ho

theorem finite_params {l : List (Str × Str × Val)} : AllFinite (.params l) ↔ ∀ x ∈ l, AllFinite x.2.2 := by
  unfold AllFinite
  constructor
  · exact fun h x hx w b ho => h w b (.params hx ho)
  · intro h w b ho
    obtain ⟨x, hx, ho⟩ := (occurs_params (by simp)).mp ho
    exact h x hx w b ho

section
variable (f32 : Nat → Nat)

mutual
theorem any_iff : ∀ v : Val, Ordinary v → ((jsonAny f32 v).isSome = true ↔ AllFinite v)
  | .nil, _ => by simp only [jsonAny, Option.isSome_some, true_iff]; rintro _ _ ⟨⟩
  | .bool _, _ => by simp only [jsonAny, Option.isSome_some, true_iff]; rintro _ _ ⟨⟩
  | .int _, _ => by simp only [jsonAny, Option.isSome_some, true_iff]; rintro _ _ ⟨⟩
  | .sint _ _, _ => by simp only [jsonAny, Option.isSome_some, true_iff]; rintro _ _ ⟨⟩
  | .uint _ _, _ => by simp only [jsonAny, Option.isSome_some, true_iff]; rintro _ _ ⟨⟩
  | .str _, _ => by simp only [jsonAny, Option.isSome_some, true_iff]; rintro _ _ ⟨⟩
  | .bytes _, _ => by simp only [jsonAny, Option.isSome_some, true_iff]; rintro _ _ ⟨⟩
  | .dec _ _, _ => by simp only [jsonAny, Option.isSome_some, true_iff]; rintro _ _ ⟨⟩
  | .big _, _ => by simp only [jsonAny, Option.isSome_some, true_iff]; rintro _ _ ⟨⟩
  | .nilSlice, _ => by simp only [jsonAny, Option.isSome_some, true_iff]; rintro _ _ ⟨⟩
  | .strs l, _ => by
    have : (jsonAny f32 (.strs l)).isSome = true := by unfold jsonAny; split <;> rfl
    simp only [this, true_iff]
    rintro _ _ ⟨⟩
  | .boxCall _ _ _, h => absurd .here (h.1 _ _ _)
  | .other _, h => absurd .here (h.2 _)
  | .float w b, _ => by
    have h1 : AllFinite (.float w b) ↔ ¬ NotFinite w b := ⟨fun h => h w b .here, fun h w' b' ho => by cases ho; exact h⟩
    rw [h1]
    unfold jsonAny NotFinite
    by_cases hw : w = 8
    · simp only [hw, if_true]
      by_cases hb : b / 2 ^ 52 % 2048 = 2047 <;> simp
    · simp only [hw, if_false]
      by_cases hb : b / 2 ^ 23 % 256 = 255 <;> simp
  | .slice l, h => by
    rw [finite_slice, ← anyList_iff l (ordinary_slice.mp h), jsonAny, Option.isSome_map]
  | .map l, h => by
    rw [finite_map, ← anyMap_iff l (ordinary_map.mp h), jsonAny, Option.isSome_map]
  | .params [], _ => by simp only [jsonAny, Option.isSome_some, true_iff]; rw [finite_params]; simp
  | .params (p :: l), h => by
    rw [finite_params, ← anyParams_iff (p :: l) (ordinary_params.mp h), jsonAny, Option.isSome_map]

theorem anyList_iff : ∀ l : List Val, (∀ x ∈ l, Ordinary x) → ((jsonAnyList f32 l).isSome = true ↔ ∀ x ∈ l, AllFinite x)
  | [], _ => by simp [jsonAnyList]
  | v :: vs, h => by
    have h1 := any_iff v (h v (by simp))
    have h2 := anyList_iff vs (fun x hx => h x (by simp [hx]))
    simp only [jsonAnyList, List.forall_mem_cons, ← h1, ← h2]
    cases jsonAny f32 v <;> cases jsonAnyList f32 vs <;> simp

theorem anyMap_iff : ∀ l : List (Str × Val), (∀ x ∈ l, Ordinary x.2) → ((jsonAnyMap f32 l).isSome = true ↔ ∀ x ∈ l, AllFinite x.2)
  | [], _ => by simp [jsonAnyMap]
  | (k, v) :: vs, h => by
    have h1 := any_iff v (h (k, v) (by simp))
    have h2 := anyMap_iff vs (fun x hx => h x (by simp [hx]))
    simp only [jsonAnyMap, List.forall_mem_cons, ← h1, ← h2]
    cases jsonAny f32 v <;> cases jsonAnyMap f32 vs <;> simp

theorem anyParams_iff : ∀ l : List (Str × Str × Val), (∀ x ∈ l, Ordinary x.2.2) → ((jsonAnyParams f32 l).isSome = true ↔ ∀ x ∈ l, AllFinite x.2.2)
  | [], _ => by simp [jsonAnyParams]
  | (k, t, v) :: vs, h => by
    have h1 := any_iff v (h (k, t, v) (by simp))
    have h2 := anyParams_iff vs (fun x hx => h x (by simp [hx]))
    simp only [jsonAnyParams, List.forall_mem_cons, ← h1, ← h2]
    cases jsonAny f32 v <;> cases jsonAnyParams f32 vs <;> simp
end

theorem args_iff (tn : Nat → Str) : ∀ (l : List (Str × Str × Val)) (i : Nat), (∀ x ∈ l, Ordinary x.2.2) →
    ((jsonArgs f32 tn i l).isSome = true ↔ ∀ x ∈ l, AllFinite x.2.2)
  | [], i, _ => by simp [jsonArgs]
  | (k, t, v) :: vs, i, h => by
    have h1 := any_iff f32 v (h (k, t, v) (by simp))
    have h2 := args_iff tn vs (i + 1) (fun x hx => h x (by simp [hx]))
    simp only [jsonArgs, List.forall_mem_cons, ← h1, ← h2]
    cases jsonAny f32 v <;> cases jsonArgs f32 tn (i + 1) vs <;> simp

mutual
/-- Where `jsonBack` of C115 says what comes back, `jsonAny` says the same. -/
theorem any_back : ∀ (v w : Val), jsonBack v = some w → jsonAny f32 v = some w
  | .nil, _, h | .bool _, _, h | .int _, _, h | .sint _ _, _, h | .uint _ _, _, h | .str _, _, h | .dec _ _, _, h | .big _, _, h | .nilSlice, _, h => by
    rw [jsonBack] at h; rw [jsonAny]; exact h
  | .strs l, _, h => by rw [jsonBack] at h; rw [jsonAny]; exact h
  | .float k b, w, h => by
    rw [jsonBack] at h
    split at h
    · rename_i hk
      rw [jsonAny, if_pos hk.1, if_pos hk.2]
      exact h
    · cases h
  | .slice l, w, h => by
    rw [jsonBack] at h
    cases hl : jsonBackList l with
    | none => rw [hl] at h; cases h
    | some l' => rw [hl] at h; rw [jsonAny, anyList_back l l' hl]; exact h
  | .map l, w, h => by
    rw [jsonBack] at h
    cases hl : jsonBackMap l with
    | none => rw [hl] at h; cases h
    | some l' => rw [hl] at h; rw [jsonAny, anyMap_back l l' hl]; exact h
  | .bytes _, _, h | .params _, _, h | .boxCall _ _ _, _, h | .other _, _, h => by simp [jsonBack] at h

theorem anyList_back : ∀ (l l' : List Val), jsonBackList l = some l' → jsonAnyList f32 l = some l'
  | [], _, h => h
  | v :: vs, l', h => by
    rw [jsonBackList] at h
    cases h1 : jsonBack v with
    | none => rw [h1] at h; cases h
    | some w =>
      cases h2 : jsonBackList vs with
      | none => rw [h1, h2] at h; cases h
      | some ws => rw [h1, h2] at h; rw [jsonAnyList, any_back v w h1, anyList_back vs ws h2]; exact h

theorem anyMap_back : ∀ (l l' : List (Str × Val)), jsonBackMap l = some l' → jsonAnyMap f32 l = some l'
  | [], _, h => h
  | (k, v) :: vs, l', h => by
    rw [jsonBackMap] at h
    cases h1 : jsonBack v with
    | none => rw [h1] at h; cases h
    | some w =>
      cases h2 : jsonBackMap vs with
      | none => rw [h1, h2] at h; cases h
      | some ws => rw [h1, h2] at h; rw [jsonAnyMap, any_back v w h1, anyMap_back vs ws h2]; exact h
end

end

section
variable {f32 : Nat → Nat}

theorem double_int {i : Int} : i.natAbs < 2 ^ 53 → _root_.Spec.IsDouble (floatBits i) i := floatBits_exact

theorem back_str (s : Str) : Back (.str s) (.str (jsonText' s)) := .str jsonText_clean

theorem back_strs : ∀ l : List Str, BackList (l.map .str) (l.map fun s => .str (jsonText' s))
  | [] => .nil
  | s :: l => .cons (back_str s) (back_strs l)

theorem back_dec (c e : Int) : Back (.dec c e) (.str (decimalText c e)) := by
  refine .dec fun he hc => ?_
  unfold decimalText
  rw [if_pos he]
  obtain ⟨k, rfl⟩ := Int.eq_ofNat_of_zero_le he
  obtain ⟨n, rfl⟩ := Int.eq_ofNat_of_zero_le hc
  have : (n : Int) * 10 ^ (k : Int).toNat = ((n * 10 ^ k : Nat) : Int) := by push_cast; simp
  rw [this]
  unfold intToDec
  rw [if_neg (by omega)]
  exact natToDec_isNumeral _

theorem digit64 : ∀ n < 64, digits64[n]? = some (b64Digit n) := by decide +kernel

theorem base64_is : ∀ s : Str, IsBase64 s (base64 s)
  | [] => .nil
  | [a] => by
    have := a.toNat_lt
    exact .one (digit64 _ (by omega)) (digit64 _ (by omega)) (by omega)
  | [a, b] => by
    have := a.toNat_lt; have := b.toNat_lt
    exact .two (digit64 _ (by omega)) (digit64 _ (by omega)) (digit64 _ (by omega)) (by omega)
  | a :: b :: c :: r => by
    have := a.toNat_lt; have := b.toNat_lt; have := c.toNat_lt
    exact .three (digit64 _ (by omega)) (digit64 _ (by omega)) (digit64 _ (by omega)) (digit64 _ (by omega)) (by omega) (base64_is r)

mutual
theorem any_spec : ∀ (v w : Val), jsonAny f32 v = some w → Back v w
  | .nil, _, h => by rw [jsonAny] at h; cases h; exact .nil
  | .bool _, _, h => by rw [jsonAny] at h; cases h; exact .bool
  | .int _, _, h => by rw [jsonAny] at h; cases h; exact .int double_int
  | .sint _ _, _, h => by rw [jsonAny] at h; cases h; exact .sint double_int
  | .uint _ _, _, h => by rw [jsonAny] at h; cases h; exact .uint fun hn => double_int (by simpa using hn)
  | .big _, _, h => by rw [jsonAny] at h; cases h; exact .big double_int
  | .str _, _, h => by rw [jsonAny] at h; cases h; exact back_str _
  | .bytes s, _, h => by rw [jsonAny] at h; cases h; exact .bytes (base64_is s)
  | .dec _ _, _, h => by rw [jsonAny] at h; cases h; exact back_dec _ _
  | .nilSlice, _, h => by rw [jsonAny] at h; cases h; exact .nilSlice
  | .strs l, _, h => by
    rw [jsonAny] at h
    split at h
    · rename_i hl; cases h; subst hl; exact .noStrs
    · cases h; exact .strs (back_strs l)
  | .float k b, w, h => by
    rw [jsonAny] at h
    split at h
    · rename_i hk
      split at h
      · rename_i hb
        cases h
        exact .float (fun _ => rfl) (by unfold NotFinite; rw [if_pos hk]; exact hb)
      · cases h
    · rename_i hk
      split at h
      · rename_i hb
        cases h
        exact .float (fun h => absurd h hk) (by unfold NotFinite; rw [if_neg hk]; exact hb)
      · cases h
  | .slice l, w, h => by
    rw [jsonAny] at h
    cases hl : jsonAnyList f32 l with
    | none => rw [hl] at h; cases h
    | some l' => rw [hl] at h; cases h; exact .slice (anyList_spec l l' hl)
  | .map l, w, h => by
    rw [jsonAny] at h
    cases hl : jsonAnyMap f32 l with
    | none => rw [hl] at h; cases h
    | some l' => rw [hl] at h; cases h; exact .map (anyMap_spec l l' hl)
  | .params [], w, h => by rw [jsonAny] at h; cases h; exact .noParams
  | .params (p :: l), w, h => by
    rw [jsonAny] at h
    cases hl : jsonAnyParams f32 (p :: l) with
    | none => rw [hl] at h; cases h
    | some l' => rw [hl] at h; cases h; exact .params (anyParams_spec (p :: l) l' hl)
  | .boxCall _ _ _, _, h => by rw [jsonAny] at h; cases h
  | .other _, _, h => by rw [jsonAny] at h; cases h

theorem anyList_spec : ∀ (l l' : List Val), jsonAnyList f32 l = some l' → BackList l l'
  | [], _, h => by rw [jsonAnyList] at h; cases h; exact .nil
  | v :: vs, l', h => by
    rw [jsonAnyList] at h
    cases h1 : jsonAny f32 v with
    | none => rw [h1] at h; cases h
    | some w =>
      cases h2 : jsonAnyList f32 vs with
      | none => rw [h1, h2] at h; cases h
      | some ws => rw [h1, h2] at h; cases h; exact .cons (any_spec v w h1) (anyList_spec vs ws h2)

theorem anyMap_spec : ∀ (l l' : List (Str × Val)), jsonAnyMap f32 l = some l' → BackMap l l'
  | [], _, h => by rw [jsonAnyMap] at h; cases h; exact .nil
  | (k, v) :: vs, l', h => by
    rw [jsonAnyMap] at h
    cases h1 : jsonAny f32 v with
    | none => rw [h1] at h; cases h
    | some w =>
      cases h2 : jsonAnyMap f32 vs with
      | none => rw [h1, h2] at h; cases h
      | some ws => rw [h1, h2] at h; cases h; exact .cons jsonText_clean (any_spec v w h1) (anyMap_spec vs ws h2)

theorem anyParams_spec : ∀ (l : List (Str × Str × Val)) (l' : List Val), jsonAnyParams f32 l = some l' →
    BackList (l.map fun p => .map [(b!"name", .str p.1), (b!"type", .str p.2.1), (b!"value", p.2.2)]) l'
  | [], _, h => by rw [jsonAnyParams] at h; cases h; exact .nil
  | (n, t, v) :: vs, l', h => by
    rw [jsonAnyParams] at h
    cases h1 : jsonAny f32 v with
    | none => rw [h1] at h; cases h
    | some w =>
      cases h2 : jsonAnyParams f32 vs with
      | none => rw [h1, h2] at h; cases h
      | some ws =>
        rw [h1, h2] at h
        cases h
        exact .cons (.map (.cons (fun _ => rfl) (back_str n) (.cons (fun _ => rfl) (back_str t) (.cons (fun _ => rfl) (any_spec v w h1) .nil)))) (anyParams_spec vs ws h2)
end

theorem args_spec (tn : Nat → Str) : ∀ (l : List (Str × Str × Val)) (i : Nat) (l' : List Val), jsonArgs f32 tn i l = some l' →
    BackList (l.mapIdx fun j p => .map [(b!"name", .str p.1), (b!"type", .str p.2.1), (b!"type_name", .str (tn (i + j))), (b!"value", p.2.2)]) l'
  | [], _, _, h => by rw [jsonArgs] at h; cases h; exact .nil
  | (n, t, v) :: vs, i, l', h => by
    rw [jsonArgs] at h
    cases h1 : jsonAny f32 v with
    | none => rw [h1] at h; cases h
    | some w =>
      cases h2 : jsonArgs f32 tn (i + 1) vs with
      | none => rw [h1, h2] at h; cases h
      | some ws =>
        rw [h1, h2] at h
        cases h
        rw [List.mapIdx_cons]
        refine .cons (.map (.cons (fun _ => rfl) (back_str n) (.cons (fun _ => rfl) (back_str t) (.cons (fun _ => rfl) (back_str _)
          (.cons (fun _ => rfl) (any_spec v w h1) .nil))))) ?_
        have := args_spec tn vs (i + 1) ws h2
        have e : ∀ j, i + 1 + j = i + (j + 1) := fun j => by omega
        simpa only [e] using this

end

theorem account_ordinary {v : Val} (h : Ordinary v) : Ordinary (addressOf v).2 := by
  unfold addressOf
  split
  · exact Builds.str
  · rename_i m
    cases hl : m.getLast? with
    | none => exact Builds.nil
    | some p => exact ordinary_map.mp h p (List.mem_of_getLast? hl)
  · exact Builds.nil

theorem finite_nil : AllFinite .nil := by rintro _ _ ⟨⟩

theorem account_finite {v : Val} (h : AllFinite v) : AllFinite (addressOf v).2 := by
  unfold addressOf
  split
  · rintro _ _ ⟨⟩
  · rename_i m
    cases hl : m.getLast? with
    | none => exact finite_nil
    | some p => exact finite_map.mp h p (List.mem_of_getLast? hl)
  · exact finite_nil

/-! ## The properties -/

/-- The full claim: every decoded extrinsic is given as a map that has its fields. -/
def C130Claim : Prop := ∀ (f32 : Nat → Nat) (tn : Nat → Str) (hash : Str) (env : Env) (n : Nat) (md : MD) (opt : ExtOpt) (data : Str) (x : Extrinsic) (st : St),
  decodeExtrinsic env n md opt data = .ok (x, st) → ∃ m, toMap f32 tn hash x = some m ∧ BackMap (fieldsOf tn hash x) m

/-- A decoded extrinsic is given as a map exactly if all floating-point numbers in its signer, signature, extensions and parameters
are finite. -/
theorem C130_exact (f32 : Nat → Nat) (tn : Nat → Str) (hash : Str) (env : Env) (n : Nat) (md : MD) (opt : ExtOpt) (data : Str) (x : Extrinsic) (st : St)
    (h : decodeExtrinsic env n md opt data = .ok (x, st)) : (∃ m, toMap f32 tn hash x = some m) ↔ OfExtrinsic AllFinite x := by
  obtain ⟨o1, o2⟩ := decodeExtrinsic_builds (P := Ordinary) h
  rw [← Option.isSome_iff_exists]
  obtain ⟨len, ver, sg, cc, cm, cf, ps, raw⟩ := x
  have i5 := args_iff f32 tn ps 0 o2
  cases sg with
  | none =>
    unfold OfExtrinsic
    simp only [toMap, signedFields, Option.getD_none, jsonAnyMap, addressOf, jsonAny]
    rw [← i5]
    cases jsonArgs f32 tn 0 ps <;> simp
  | some s =>
    obtain ⟨q1, q2, q3⟩ := o1 s rfl
    have i1 := anyMap_iff f32 s.extensions q3
    have i2 := any_iff f32 _ (account_ordinary q1)
    have i3 := any_iff f32 _ q1
    have i4 := any_iff f32 _ q2
    have i23 : (jsonAny f32 s.signer).isSome = true → (jsonAny f32 (addressOf s.signer).2).isSome = true := fun h => i2.mpr (account_finite (i3.mp h))
    have key : OfExtrinsic AllFinite ⟨len, ver, some s, cc, cm, cf, ps, raw⟩ ↔
        (AllFinite s.signer ∧ AllFinite s.signatureRaw ∧ ∀ p ∈ s.extensions, AllFinite p.2) ∧ ∀ p ∈ ps, AllFinite p.2.2 := by
      unfold OfExtrinsic
      simp
    rw [key, ← i1, ← i3, ← i4, ← i5]
    simp only [toMap, signedFields, Option.getD_some]
    revert i23
    cases jsonAnyMap f32 s.extensions <;> cases jsonAny f32 s.signer <;> cases jsonAny f32 s.signatureRaw <;> cases jsonArgs f32 tn 0 ps <;>
      cases jsonAny f32 (addressOf s.signer).2 <;> simp

/-- The map has the fields of the extrinsic under their names, each as it comes back from JSON. -/
theorem C130_fields (f32 : Nat → Nat) (tn : Nat → Str) (hash : Str) (x : Extrinsic) (m : List (Str × Val)) (h : toMap f32 tn hash x = some m) :
    BackMap (fieldsOf tn hash x) m := by
  have hk : ∀ k : Str, utf8Valid k = true → k = k := fun _ _ => rfl
  obtain ⟨len, ver, sg, cc, cm, cf, ps, raw⟩ := x
  unfold toMap at h
  dsimp only at h
  obtain ⟨exts, h1, h⟩ := Option.bind_eq_some_iff.mp h
  obtain ⟨account, h2, h⟩ := Option.bind_eq_some_iff.mp h
  obtain ⟨signer, h3, h⟩ := Option.bind_eq_some_iff.mp h
  obtain ⟨raw', h4, h⟩ := Option.bind_eq_some_iff.mp h
  obtain ⟨params, h5, h⟩ := Option.bind_eq_some_iff.mp h
  cases h
  have p5 := args_spec tn ps 0 params h5
  simp only [Nat.zero_add] at p5
  have hp : Back (if ps = [] then .nilSlice else .slice (ps.mapIdx fun j p =>
      .map [(b!"name", .str p.1), (b!"type", .str p.2.1), (b!"type_name", .str (tn j)), (b!"value", p.2.2)])) (if ps = [] then .nil else .slice params) := by
    split
    · exact .nilSlice
    · exact .slice p5
  cases sg with
  | none =>
    refine .cons (hk _) (back_str _) (.cons (hk _) (.int double_int) (.cons (hk _) ?_ (.cons (hk _) (back_dec 0 0) (.cons (hk _) .nil (.cons (hk _) (any_spec .nil _ h2)
      (.cons (hk _) (any_spec .nil _ h3) (.cons (hk _) (back_str []) (.cons (hk _) (any_spec .nil _ h4) (.cons (hk _) (.int double_int) (.cons (hk _) (back_str [])
      (.cons (hk _) (back_str _) (.cons (hk _) (back_str _) (.cons (hk _) (back_str _) (.cons (hk _) (back_str _) (.cons (hk _) hp (.cons (hk _) (back_str _)
      (.cons (hk _) (.int double_int) .nil)))))))))))))))))
    exact back_str []
  | some s =>
    exact .cons (hk _) (back_str _) (.cons (hk _) (.int double_int) (.cons (hk _) (back_str _) (.cons (hk _) (back_dec _ _) (.cons (hk _) (.map (anyMap_spec _ _ h1))
      (.cons (hk _) (any_spec _ _ h2) (.cons (hk _) (any_spec _ _ h3) (.cons (hk _) (back_str _) (.cons (hk _) (any_spec _ _ h4) (.cons (hk _) (.int double_int)
      (.cons (hk _) (back_str _) (.cons (hk _) (back_str _) (.cons (hk _) (back_str _) (.cons (hk _) (back_str _) (.cons (hk _) (back_str _) (.cons (hk _) hp
      (.cons (hk _) (back_str _) (.cons (hk _) (.int double_int) .nil)))))))))))))))))

/-- Without numbers that are not finite: every decoded extrinsic is given as a map that has its fields. -/
theorem C130_partial (f32 : Nat → Nat) (tn : Nat → Str) (hash : Str) (env : Env) (n : Nat) (md : MD) (opt : ExtOpt) (data : Str) (x : Extrinsic) (st : St)
    (h : decodeExtrinsic env n md opt data = .ok (x, st)) (hf : OfExtrinsic AllFinite x) :
    ∃ m, toMap f32 tn hash x = some m ∧ BackMap (fieldsOf tn hash x) m := by
  obtain ⟨m, hm⟩ := (C130_exact f32 tn hash env n md opt data x st h).mpr hf
  exact ⟨m, hm, C130_fields f32 tn hash x m hm⟩

/-- Where C115 says what comes back of a value, it is this. -/
theorem C130_values (f32 : Nat → Nat) (v w : Val) (h : jsonBack v = some w) : jsonAny f32 v = some w := any_back f32 v w h

/-- Metadata with one call with a number of 8 bytes. -/
def nanMD : MD where
  version := 14
  callIndex := fun k => if k = b!"0000" then some ⟨b!"c", b!"M", [(b!"x", b!"Float64")]⟩ else none
  eventIndex := fun _ => none
  extrinsic := none

/-- An extrinsic with a parameter that is not a number: the map is nil. -/
theorem C130_claim_false : ¬ C130Claim := by
  intro h
  have e : decodeExtrinsic rtEnv 9 nanMD rtOpt [4, 0, 0, 0, 0, 0, 248, 127] =
      .ok (⟨0, b!"04", none, b!"0000", b!"M", b!"c", [(b!"x", b!"Float64", .float 8 0x7ff8000000000004)], []⟩, ⟨⟨[4, 0, 0, 0, 0, 0, 248, 127], 3⟩, []⟩) := by kernel_rfl
  obtain ⟨m, hm, _⟩ := h (fun n => n) (fun _ => []) [] rtEnv 9 nanMD rtOpt _ _ _ e
  exact absurd hm (by simp [toMap, signedFields, jsonAnyMap, addressOf, jsonAny, jsonArgs])

/-- Nonces from 2^53 on are not all told apart. -/
theorem C130_nonce (f32 : Nat → Nat) (tn : Nat → Str) (hash : Str) (x : Extrinsic) (s : Signed) (k : Nat) (hk : 53 ≤ k) :
    toMap f32 tn hash { x with signed := some { s with nonce := 2 ^ k + 1 } } = toMap f32 tn hash { x with signed := some { s with nonce := 2 ^ k } } := by
  have : floatBits (2 ^ k + 1) = floatBits (2 ^ k) := by
    have := (C115_large_wrong k 8 hk).2
    simpa [jsonBack] using this
  simp only [toMap, signedFields, Option.getD_some, this]
  rfl

/-- A signed extrinsic is decoded and given as a map. -/
example : (decodeExtrinsic rtEnv 9 (rtMD rtGood) rtOpt (hexToBytes b!"3084aaaabbbb00000408000007") >>= fun r =>
    .ok ((toMap (fun n => n) (fun _ => b!"u8") b!"ff" r.1).map fun m => (m.length, (mapGet m b!"tip").isSome, (mapGet m b!"call_code").isSome))) =
    .ok (some (18, true, true)) := by kernel_rfl

/-- The hypotheses of C130_partial are met. -/
example : ∃ x st, decodeExtrinsic rtEnv 9 (rtMD []) rtOpt [4, 0, 0, 7] = .ok (x, st) ∧ OfExtrinsic AllFinite x :=
  ⟨⟨0, b!"04", none, b!"0000", b!"M", b!"c", [(b!"x", b!"u8", .int 7)], b!"07"⟩, ⟨⟨[4, 0, 0, 7], 4⟩, []⟩, by kernel_rfl, by
    refine ⟨(by simp), ?_⟩
    simp only [List.mem_singleton, forall_eq]
    rintro _ _ ⟨⟩⟩

end ScaleGo
