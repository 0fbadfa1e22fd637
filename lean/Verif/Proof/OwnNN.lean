import Verif.Proof.OwnMat

/-!
# Ownership in pooling, convolution and batch normalisation
-/

namespace Aitisa

variable {α β σ ρ : Type} {n : Nat} {E : Env} {m m' m0 : Mem} {k : Bool} {L : List Tok}

/-! ## Pooling -/

/-- An early exit does not report success. -/
def Fails (r : α ⊕ Status) : Prop := ∀ st, r = .inr st → st ≠ .success

theorem Fails.inl {a : α} : Fails (.inl a) := fun _ h => by cases h
theorem Fails.inr {st : Status} (h : st ≠ .success) : Fails (.inr st : α ⊕ Status) := fun _ e => by cases e; exact h

theorem Quiet.loopFails {f : Nat → σ → M (σ ⊕ Status)} (h : ∀ i s, Quiet n (f i s) Fails) (k i : Nat) (s : σ) :
    Quiet n (Aitisa.loopE f k i s) Fails := by
  induction k generalizing i s with
  | zero => exact Quiet.pure Fails.inl
  | succ k ih =>
    unfold Aitisa.loopE
    refine Quiet.bind (h i s) fun r hr => ?_
    cases r with
    | inl s' => exact ih _ _
    | inr r => exact Quiet.pure (Fails.inr (hr r rfl))

theorem Quiet.whileFails {f : σ → M ((σ × Bool) ⊕ Status)} (h : ∀ s, Quiet n (f s) Fails) (k : Nat) (s : σ) :
    Quiet n (Aitisa.whileE f k s) Fails := by
  induction k generalizing s with
  | zero => intro E m a m' s e; cases e
  | succ k ih =>
    unfold Aitisa.whileE
    refine Quiet.bind (h s) fun r hr => ?_
    cases r with
    | inl s' => exact Quiet.ite (fun _ => ih _) fun _ => Quiet.pure Fails.inl
    | inr r => exact Quiet.pure (Fails.inr (hr r rfl))

theorem Quiet.poolVisit' (s : String) (c : Option Code) (p : Ptr) (t : BitVec 64) (o : Option Int) : Quiet n (Aitisa.poolVisit s c p t o) Fails := by
  cases o with
  | none => exact Quiet.pure Fails.inl
  | some o =>
    cases c with
    | none => exact Quiet.pure (Fails.inr (st := .notSupported) (by decide))
    | some c => exact Quiet.bind (Quiet.poolAcc _ _ _ _ _) fun _ _ => Quiet.pure Fails.inl

theorem Quiet.poolElem' (s : String) (c : Option Code) (p : Ptr) (as : List PAxis) (l : List Int) (b : Int) (w : List (Int × Int)) (x : List Int × BitVec 64) :
    Quiet n (Aitisa.poolElem s c p as l b w x) Fails := by
  refine Quiet.bind (Quiet.poolOffset _ _ _ _) fun o _ => Quiet.bind (Quiet.poolVisit' _ _ _ _ _) fun r hr => ?_
  cases r with
  | inl t => exact Quiet.bind (Quiet.poolNextElem _ _ _) fun _ _ => Quiet.pure Fails.inl
  | inr st => exact Quiet.pure (Fails.inr (hr st rfl))

theorem Quiet.poolWindow' (k : Nat) (s : String) (c : Option Code) (ip : Ptr) {p : Ptr} (hp : p.New n) (as : List PAxis) (l : List Int) (a b d e : Int) (x : List (Int × Int) × Int) :
    Quiet n (Aitisa.poolWindow k s c ip p as l a b d e x) Fails := by
  refine Quiet.bind Quiet.getFp fun _ _ => Quiet.bind (Quiet.whileFails (fun _ => Quiet.poolElem' _ _ _ _ _ _ _ _) _ _) fun r hr => ?_
  cases r with
  | inl t =>
    refine Quiet.bind (Quiet.i64 _) fun _ _ => Quiet.bind (Quiet.i64 _) fun _ _ => ?_
    cases c with
    | none => exact Quiet.pure (Fails.inr (st := .notSupported) (by decide))
    | some c =>
      exact Quiet.bind (Quiet.poolStore _ _ hp _ _ _) fun _ _ => Quiet.bind (Quiet.poolNextWin _ _) fun _ _ => Quiet.bind (Quiet.i32 _) fun _ _ =>
        Quiet.pure Fails.inl
  | inr st => exact Quiet.pure (Fails.inr (hr st rfl))

theorem Quiet.poolChannel' (k : Nat) (s : String) (c : Option Code) (ip : Ptr) {p : Ptr} (hp : p.New n) (as : List PAxis) (l l' : List Int) (a : Int) (i j : Nat) :
    Quiet n (Aitisa.poolChannel k s c ip p as l l' a i j) Fails := by
  refine Quiet.bind (Quiet.poolBase _ _ _ _) fun _ _ => Quiet.bind (Quiet.poolBase _ _ _ _) fun _ _ => Quiet.bind (Quiet.poolHeads _) fun _ _ =>
    Quiet.bind (Quiet.whileFails (fun _ => Quiet.poolWindow' _ _ _ _ hp _ _ _ _ _ _ _) _ _) fun r hr => ?_
  cases r with
  | inl t => exact Quiet.pure Fails.inl
  | inr st => exact Quiet.pure (Fails.inr (hr st rfl))

theorem Quiet.poolSample' (a b c : Ptr) {f : Nat → M (Unit ⊕ Status)} (hf : ∀ i, Quiet n (f i) Fails) (k : Nat) :
    Quiet n (Aitisa.poolSample a b c f k) Fails :=
  Quiet.bind (Quiet.touch _ _ _) fun _ _ => Quiet.bind (Quiet.touch _ _ _) fun _ _ => Quiet.bind (Quiet.touch _ _ _) fun _ _ =>
    Quiet.loopFails (fun _ _ => hf _) _ _ _

theorem Quiet.poolFill' (k : Nat) (s : String) (h : Ptr) {t : Ptr} (ht : t.New n) (nd : Int) (dims : Arr) (as : List PAxis) (a b c d e : Ptr) :
    Quiet n (Aitisa.poolFill k s h t nd dims as a b c d e) Fails := by
  refine Quiet.bind (Quiet.poolSize _ _) fun _ _ => Quiet.bind (Quiet.touch _ _ _) fun _ _ => Quiet.bind (Quiet.getAllStrides _ _) fun _ _ =>
    Quiet.bind (Quiet.touch _ _ _) fun _ _ => Quiet.bind (Quiet.getAllStrides _ _) fun _ _ => Quiet.bind (Quiet.tData _) fun _ _ =>
    Quiet.bind (Quiet.tData _) fun _ hp => Quiet.bind (Quiet.tDtype _) fun _ _ => Quiet.bind (Quiet.rd _ _) fun _ _ => Quiet.bind (Quiet.rd _ _) fun _ _ =>
    Quiet.loopFails (fun _ _ => Quiet.poolSample' _ _ _ (fun _ => Quiet.poolChannel' _ _ _ _ (hp ht) _ _ _ _ _ _) _) _ _ _

quiet_add Quiet.poolFill'

theorem Op.poolCreate (h : Ptr) (nd x0 x1 : Int) (as : List PAxis) : Op (poolCreate h nd x0 x1 as) := by
  refine Op.of fun n m0 => ?_
  unfold Aitisa.poolCreate
  own
own_add Op.poolCreate

theorem Op.poolRun (fuel : Nat) (h : Ptr) (mode : String) (ks ss ps ds : Arr) (nd : Int) (out : Ptr) : Op (poolRun fuel h mode ks ss ps ds nd out) := by
  refine Op.of fun n m0 => ?_
  unfold Aitisa.poolRun poolMain poolFree
  simp only [M.assoc]
  own
  exact Tri.fail (‹Fails _› _ rfl)
own_add Op.poolRun

theorem Op.pooling (fuel : Nat) (h : Ptr) (mode : String) (ks ss ps ds : Arr) (out : Ptr) : Op (pooling fuel h mode ks ss ps ds out) := by
  refine Op.of fun n m0 => ?_
  unfold Aitisa.pooling
  own

/-! ## Convolution -/

theorem Op.convFloat (j : Fall) (h f : Ptr) (ss ps ds : Arr) (g : Int) (out : Ptr) : Op (convFloat j h f ss ps ds g out) := by
  refine Op.of fun n m0 => ?_
  unfold Aitisa.convFloat convMain
  simp only [rawFrees, M.assoc]
  own
own_add Op.convFloat

theorem Op.conv (j j' : Fall) (h f : Ptr) (ss ps ds : Arr) (g : Int) (out : Ptr) : Op (conv j j' h f ss ps ds g out) := by
  refine Op.of fun n m0 => ?_
  unfold Aitisa.conv
  own
own_add Op.conv

theorem Op.conv2d (j j' : Fall) (h f : Ptr) (ss ps ds : Arr) (g : Int) (out : Ptr) : Op (conv2d j j' h f ss ps ds g out) := by
  refine Op.of fun n m0 => ?_
  unfold Aitisa.conv2d
  own

theorem Op.conv3d (j j' : Fall) (h f : Ptr) (ss ps ds : Arr) (g : Int) (out : Ptr) : Op (conv3d j j' h f ss ps ds g out) := by
  refine Op.of fun n m0 => ?_
  unfold Aitisa.conv3d
  own

end Aitisa
