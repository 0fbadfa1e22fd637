import Verif.Proof.OwnOp

/-!
# The operators change no existing memory and leave no scratch memory on success
-/

namespace Aitisa

variable {α β σ ρ : Type} {n : Nat} {E : Env} {m m' m0 : Mem} {k : Bool} {L : List Tok}

/-- Applies a lemma about an operator.  Each lemma extends it. -/
syntax "own_lemma" : tactic

macro_rules | `(tactic| own_lemma) => `(tactic| fail)

open Lean in
/-- Registers lemmas. -/
macro "own_add" xs:ident+ : command => do
  let cmds ← xs.mapM fun x => `(command| macro_rules | `(tactic| own_lemma) => `(tactic| (with_reducible apply $x:ident) <;> quiet_side))
  return ⟨mkNullNode cmds⟩

own_add Op.create

/-- Decides the tests of a known status. -/
macro "own_simp" : tactic => `(tactic| simp only [ne_eq, not_true_eq_false, not_false_eq_true, if_true, if_false, *])

/-- Part of the tokens. -/
macro "own_sub" : tactic => `(tactic| repeat' (first | exact List.Sublist.refl _ | apply List.Sublist.cons))

/-- Release of an array that is among the tokens. -/
macro "own_free" : tactic => `(tactic| first
  | ((with_reducible refine Tri.bindFree 0 ?_ ?_); (focus rfl)) | ((with_reducible refine Tri.bindFree 1 ?_ ?_); (focus rfl)) | ((with_reducible refine Tri.bindFree 2 ?_ ?_); (focus rfl)) | ((with_reducible refine Tri.bindFree 3 ?_ ?_); (focus rfl))
  | ((with_reducible refine Tri.bindFree 4 ?_ ?_); (focus rfl)) | ((with_reducible refine Tri.bindFree 5 ?_ ?_); (focus rfl)) | ((with_reducible refine Tri.bindFree 6 ?_ ?_); (focus rfl)) | ((with_reducible refine Tri.bindFree 7 ?_ ?_); (focus rfl))
  | ((with_reducible refine Tri.bindFree 8 ?_ ?_); (focus rfl)) | ((with_reducible refine Tri.bindFree 9 ?_ ?_); (focus rfl)))

/-- Release of a cell that is among the tokens. -/
macro "own_cfree" : tactic => `(tactic| first
  | ((with_reducible refine Tri.bindCFree 0 ?_ ?_); (focus rfl)) | ((with_reducible refine Tri.bindCFree 1 ?_ ?_); (focus rfl)) | ((with_reducible refine Tri.bindCFree 2 ?_ ?_); (focus rfl)))

/-- Release of a tensor that is among the tokens. -/
macro "own_destroy" : tactic => `(tactic| first
  | ((with_reducible refine Tri.bindDestroy 0 ?_ ?_); (focus rfl)) | ((with_reducible refine Tri.bindDestroy 1 ?_ ?_); (focus rfl)) | ((with_reducible refine Tri.bindDestroy 2 ?_ ?_); (focus rfl)) | ((with_reducible refine Tri.bindDestroy 3 ?_ ?_); (focus rfl))
  | ((with_reducible refine Tri.bindDestroy 4 ?_ ?_); (focus rfl)) | ((with_reducible refine Tri.bindDestroy 5 ?_ ?_); (focus rfl)))

/-- One step of a proof about ownership. -/
macro "own_step" : tactic => `(tactic| first
  | with_reducible exact Tri.ub _
  | ((with_reducible refine Tri.fail ?_); first | assumption | decide)
  | with_reducible exact Tri.ret
  | with_reducible exact Tri.retAny
  | with_reducible exact Tri.retS
  | with_reducible exact Tri.endS
  | ((with_reducible refine Tri.endF ?_ ?_); (focus first | assumption | decide); own_sub; done)
  | ((with_reducible refine Tri.failSub ?_ ?_); (focus first | assumption | decide); own_sub; done)
  | ((with_reducible apply Tri.bindQ); (focus quiet_lemma); intro _ _)
  | (with_reducible refine Tri.bindScratch (fun _ _ => ?_))
  | (with_reducible refine Tri.bindCell (fun _ _ => ?_))
  | ((with_reducible refine Tri.bindOp ?_ (fun _ _ => ?_) (fun _ _ _ => ?_)); (focus own_lemma); (all_goals try own_simp))
  | ((with_reducible refine Tri.bindS ?_ ?_ (fun _ _ => ?_)); (focus own_lemma); (all_goals try own_simp))
  | ((with_reducible refine Tri.bindS ?_ ?_ (fun _ _ => ?_)); (focus (with_reducible apply Quiet.postS); quiet_lemma); (all_goals try own_simp))
  | (own_free; try simp only [List.eraseIdx_cons_succ, List.eraseIdx_cons_zero])
  | (own_cfree; try simp only [List.eraseIdx_cons_succ, List.eraseIdx_cons_zero])
  | (own_destroy; try simp only [List.eraseIdx_cons_succ, List.eraseIdx_cons_zero])
  | (with_reducible refine Tri.ite (fun _ => ?_) (fun _ => ?_))
  | ((with_reducible refine Op.tri ?_); own_lemma)
  | ((with_reducible refine Tri.bindQ (F := fun _ => True) ?_ (fun _ _ => ?_)); (focus (quiet; done)))
  | split)

/-- A proof about ownership. -/
macro "own" : tactic => `(tactic| repeat' own_step)

theorem Op.full (dt : DType) (dev : Device) (dims : Arr) (ndim : Int) (v : BitVec 64) (out : Ptr) : Op (full dt dev dims ndim v out) := by
  refine Op.of fun n m0 => ?_
  unfold Aitisa.full
  own
own_add Op.full

theorem Op.createLike (h out : Ptr) : Op (createLike h out) := by
  refine Op.of fun n m0 => ?_
  unfold Aitisa.createLike
  own
own_add Op.createLike

theorem Op.reshape (h : Ptr) (dims : Arr) (ndim : Int) (out : Ptr) : Op (reshape h dims ndim out) := by
  refine Op.of fun n m0 => ?_
  unfold Aitisa.reshape
  own
own_add Op.reshape

theorem Op.squeeze (h : Ptr) (axis : Arr) (na : Int) (out : Ptr) : Op (squeeze h axis na out) := by
  refine Op.of fun n m0 => ?_
  unfold Aitisa.squeeze
  own
own_add Op.squeeze

theorem Op.relu (h out : Ptr) : Op (relu h out) := by
  refine Op.of fun n m0 => ?_
  unfold Aitisa.relu
  own
own_add Op.relu

theorem Op.sigmoid (h out : Ptr) : Op (sigmoid h out) := by
  refine Op.of fun n m0 => ?_
  unfold Aitisa.sigmoid
  own
own_add Op.sigmoid

theorem Op.tanh (h out : Ptr) : Op (tanh h out) := by
  refine Op.of fun n m0 => ?_
  unfold Aitisa.tanh
  own
own_add Op.tanh

theorem Op.sqrt (h out : Ptr) : Op (sqrt h out) := by
  refine Op.of fun n m0 => ?_
  unfold Aitisa.sqrt
  own
own_add Op.sqrt

theorem Op.sliceCreate (h : Ptr) (a b : List Int) (out : Ptr) : Op (sliceCreate h a b out) := by
  refine Op.of fun n m0 => ?_
  unfold Aitisa.sliceCreate
  own
own_add Op.sliceCreate

theorem Tri.sliceTemplate (h : Ptr) (a b c : List Int) {t : Ptr} (ht : t.New n) :
    Tri n m0 (Own k n L) (sliceTemplate h a b c t) (PostS k n L) := by
  unfold Aitisa.sliceTemplate
  own
own_add Tri.sliceTemplate

theorem Op.slice (h : Ptr) (a b c : Arr) (out : Ptr) : Op (slice h a b c out) := by
  refine Op.of fun n m0 => ?_
  unfold Aitisa.slice
  own
own_add Op.slice

theorem Op.duplicate (h out : Ptr) : Op (duplicate h out) := by
  refine Op.of fun n m0 => ?_
  unfold Aitisa.duplicate
  own
own_add Op.duplicate

theorem Op.dropout (h : Ptr) (r : BitVec 64) (out : Ptr) : Op (dropout h r out) := by
  refine Op.of fun n m0 => ?_
  unfold Aitisa.dropout
  own
own_add Op.dropout

theorem Tri.softmaxAxis (h : Ptr) (a : Int) {t : Ptr} (ht : t.New n) :
    Tri n m0 (Own k n L) (softmaxAxis h a t) (PostS k n L) := by
  unfold Aitisa.softmaxAxis
  own
own_add Tri.softmaxAxis

theorem Op.softmax (h : Ptr) (a : Int) (out : Ptr) : Op (softmax h a out) := by
  refine Op.of fun n m0 => ?_
  unfold Aitisa.softmax
  own
own_add Op.softmax

theorem Op.binFill (op : BinOp) (h1 h2 : Ptr) (d : Arr) (k : Int) (out : Ptr) : Op (binFill op h1 h2 d k out) := by
  refine Op.of fun n m0 => ?_
  unfold Aitisa.binFill
  own
own_add Op.binFill

theorem Op.binaryOp (op : BinOp) (h1 h2 out : Ptr) : Op (binaryOp op h1 h2 out) := by
  refine Op.of fun n m0 => ?_
  unfold Aitisa.binaryOp
  own
own_add Op.binaryOp

end Aitisa
