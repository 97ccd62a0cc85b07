import Verif.Lemmas.Comp
import Verif.Model.MetaV14
import Verif.Spec.Portable

/-! # Steps that read given bytes once the recursion budget is large enough -/

namespace ScaleGo
open _root_.Spec (WAll WList WOpt FList)

/-- With enough budget the step `f` reads `b` and gives `a`. -/
def Settles {α : Type} (f : Nat → Dec α) (b : Str) (a : α) : Prop := ∃ N, ∀ n, N ≤ n → DecAt (f n) b a []

theorem settles_decodes {env : Env} {ctx : Ctx} {ty b : Str} {v : Val} (h : Decodes env ctx ty b v []) :
    Settles (fun n => pau env n ctx ty) b v := h

theorem settles_pure {α : Type} (a : α) : Settles (fun _ st => .ok (a, st)) [] a := ⟨0, fun _ _ => DecAt.pure a⟩

theorem settles_step {α β : Type} {f : Nat → Dec α} {k : Nat → α × St → Res (β × St)} {b1 b2 : Str} {a : α} {c : β}
    (h1 : Settles f b1 a) (h2 : Settles (fun n st => k n (a, st)) b2 c) :
    Settles (fun n st => f n st >>= k n) (b1 ++ b2) c := by
  obtain ⟨N, h1⟩ := h1
  obtain ⟨M, h2⟩ := h2
  exact ⟨max N M, fun n hn => DecAt.step0 (h1 n (by omega)) (h2 n (by omega))⟩

theorem settles_last {α β : Type} {f : Nat → Dec α} {k : Nat → α × St → Res (β × St)} {b : Str} {a : α} {c : β}
    (h1 : Settles f b a) (h2 : Settles (fun n st => k n (a, st)) [] c) : Settles (fun n st => f n st >>= k n) b c := by
  have := settles_step h1 h2
  rwa [List.append_nil] at this

theorem settles_if {α : Type} {p : Prop} [Decidable p] {f g : Nat → Dec α} {b : Str} {a : α} (h : p) (hf : Settles f b a) :
    Settles (fun n st => if p then f n st else g n st) b a := by
  simpa [if_pos h] using hf

theorem settles_ifn {α : Type} {p : Prop} [Decidable p] {f g : Nat → Dec α} {b : Str} {a : α} (h : ¬ p) (hf : Settles g b a) :
    Settles (fun n st => if p then f n st else g n st) b a := by
  simpa [if_neg h] using hf

section
variable {env : Env} {ctx : Ctx}

theorem settles_str {ty b s : Str} (h : Decodes env ctx ty b (.str s) []) : Settles (fun n => readText (pau env n) ctx ty) b s := by
  refine settles_last (settles_decodes h) ?_
  exact settles_pure s

theorem settles_int {ty b : Str} {i : Nat} (h : Decodes env ctx ty b (.int i) []) :
    Settles (fun n => readInt (pau env n) ctx ty) b i := by
  refine settles_last (settles_decodes h) ?_
  exact settles_pure i

theorem settles_many {α β : Type} {P : α → Str → Prop} {F : α → Prop} {f : Nat → Dec β} {k : α → β}
    (hi : ∀ a b, P a b → F a → Settles f b (k a)) :
    ∀ (l : List α) (d : Str), WAll P l d → (∀ a ∈ l, F a) → Settles (fun n => readMany (f n) l.length) d (l.map k)
  | [], d, hw, _ => by
    have : d = [] := hw
    subst this
    exact settles_pure []
  | a :: l, d, hw, hf => by
    obtain ⟨c, e, hc, he, rfl⟩ := hw
    refine settles_step (hi a c hc (hf a (by simp))) ?_
    refine settles_last (settles_many hi l e he (fun x hx => hf x (by simp [hx]))) ?_
    exact settles_pure _

theorem settles_vec {α β : Type} {P : α → Str → Prop} {F : α → Prop} {f : Nat → Dec β} {k : α → β} (hL : LenOK env ctx)
    (hi : ∀ a b, P a b → F a → Settles f b (k a)) {l : List α} {b : Str} (hw : WList P l b) (hf : FList F l) :
    Settles (fun n => readVec (pau env n) ctx (f n)) b (l.map k) := by
  obtain ⟨c, d, hc, hd, rfl⟩ := hw
  have h1 := hf.1
  refine settles_step (settles_decodes (len_decodes hL (by omega) hc)) ?_
  show Settles (fun n st => if (l.length : Int) > 524288 then .panic else readMany (f n) ((l.length : Int)).toNat st) d (l.map k)
  refine settles_ifn (by omega) ?_
  exact settles_many hi l d hd hf.2

end

end ScaleGo
