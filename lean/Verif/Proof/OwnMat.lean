import Verif.Proof.OwnOps

/-!
# Ownership in conversion, matrix product and dot product
-/

namespace Aitisa

variable {α β σ ρ : Type} {n : Nat} {E : Env} {m m' m0 : Mem} {k : Bool} {L : List Tok}

theorem M.assoc {γ : Type} (x : M α) (f : α → M β) (g : β → M γ) : (x >>= f) >>= g = x >>= fun a => f a >>= g := by
  funext E m
  simp only [run_bind]
  cases x E m <;> rfl

theorem Tri.cast (h : Ptr) (dt : DType) (out : Ptr) :
    Tri n m0 (Own true n []) (cast h dt out) fun r m => (r.1 = .success ∧ r.2 = out ∧ Own true n [] m) ∨ Post true n [] r m := by
  unfold Aitisa.cast
  own_step
  refine Tri.ite (fun _ => Tri.pure fun _ o => .inl ⟨rfl, rfl, o⟩) fun _ => Tri.post ?_ fun _ _ h => .inr h
  own

theorem Op.matFull (h : Ptr) (d : Arr) (nd : Int) (out : Ptr) : Op (matFull h d nd out) := by
  refine Op.of fun n m0 => ?_
  unfold Aitisa.matFull
  own
own_add Op.matFull

theorem Op.matPlain (h1 h2 : Ptr) (d : Arr) (nd : Int) (out : Ptr) {f : Code → Ptr → Ptr → Ptr → M Unit}
    (hf : ∀ n c a b r, r.New n → Quiet n (f c a b r) fun _ => True) : Op (matPlain h1 h2 d nd out f) := by
  refine Op.of fun n m0 => ?_
  unfold Aitisa.matPlain withCode
  own

theorem Op.matVV (h1 h2 out : Ptr) : Op (matVV h1 h2 out) := by
  refine Op.of fun n m0 => ?_
  unfold Aitisa.matVV
  own
  exact (Op.matPlain _ _ _ _ _ fun n c a b r hr => Quiet.vvKernel c a b hr _).tri
own_add Op.matVV

theorem Op.matMV (h1 h2 out : Ptr) : Op (matMV h1 h2 out) := by
  refine Op.of fun n m0 => ?_
  unfold Aitisa.matMV
  own
  exact (Op.matPlain _ _ _ _ _ fun n c a b r hr => Quiet.mvKernel c a b hr _ _).tri
own_add Op.matMV

theorem Op.matMM (h1 h2 out : Ptr) : Op (matMM h1 h2 out) := by
  refine Op.of fun n m0 => ?_
  unfold Aitisa.matMM
  own
  exact (Op.matPlain _ _ _ _ _ fun n c a b r hr => Quiet.mmKernel c a b hr _ _ _ _ _ _).tri
own_add Op.matMM

theorem Op.matVM (h1 h2 out : Ptr) : Op (matVM h1 h2 out) := by
  refine Op.of fun n m0 => ?_
  unfold Aitisa.matVM
  own
  exact (Op.matPlain _ _ _ _ _ fun n c a b r hr => Quiet.mmKernel c a b hr _ _ _ _ _ _).tri
own_add Op.matVM

theorem Tri.batchRun (h1 h2 : Ptr) {t : Ptr} (ht : t.New n) (s1 s2 s3 nM nK nN nb : Int) {f : Nat → M (Int × Int)}
    (hf : ∀ i, Quiet n (f i) fun _ => True) : Tri n m0 (Own k n L) (batchRun h1 h2 t s1 s2 s3 nM nK nN nb f) (PostS k n L) := by
  unfold Aitisa.batchRun withCode
  own
own_add Tri.batchRun

theorem Op.matTV (h1 h2 out : Ptr) (k : Int) : Op (matTV h1 h2 out k) := by
  refine Op.of fun n m0 => ?_
  unfold Aitisa.matTV
  own
  refine Tri.bindS (Tri.batchRun _ _ ‹_› _ _ _ _ _ _ _ fun _ => Quiet.pure trivial) ?_ fun _ _ => ?_
  all_goals (try own_simp)
  all_goals own
own_add Op.matTV

theorem Op.matVT (h1 h2 out : Ptr) (k : Int) : Op (matVT h1 h2 out k) := by
  refine Op.of fun n m0 => ?_
  unfold Aitisa.matVT
  own
  refine Tri.bindS (Tri.batchRun _ _ ‹_› _ _ _ _ _ _ _ fun _ => Quiet.pure trivial) ?_ fun _ _ => ?_
  all_goals (try own_simp)
  all_goals own
own_add Op.matVT

theorem Tri.matTTFill (h1 h2 : Ptr) {t : Ptr} (ht : t.New n) (d1 d2 bd : Arr) (n1 n2 nd nM nK k2 nN : Int) :
    Tri n m0 (Own k n L) (matTTFill h1 h2 t d1 d2 bd n1 n2 nd nM nK k2 nN) (PostS k n L) := by
  unfold Aitisa.matTTFill
  own
own_add Tri.matTTFill

theorem Op.matTT (h1 h2 out : Ptr) (k l : Int) : Op (matTT h1 h2 out k l) := by
  refine Op.of fun n m0 => ?_
  unfold Aitisa.matTT
  own
own_add Op.matTT

theorem Op.matmul (h1 h2 out : Ptr) : Op (matmul h1 h2 out) := by
  refine Op.of fun n m0 => ?_
  unfold Aitisa.matmul
  own
own_add Op.matmul

theorem Op.vecDot (h1 h2 out : Ptr) : Op (vecDot h1 h2 out) := by
  refine Op.of fun n m0 => ?_
  unfold Aitisa.vecDot
  own
  exact (Op.matPlain _ _ _ _ _ fun n c a b r hr => Quiet.dotKernel c a b hr _).tri
own_add Op.vecDot

theorem Op.scalarMulOf (h1 b s out : Ptr) : Op (scalarMulOf h1 b s out) := by
  refine Op.of fun n m0 => ?_
  unfold Aitisa.scalarMulOf
  own
own_add Op.scalarMulOf

theorem Op.scalarMul (h1 h2 out : Ptr) : Op (scalarMul h1 h2 out) := by
  refine Op.of fun n m0 => ?_
  unfold Aitisa.scalarMul
  own
own_add Op.scalarMul

theorem Tri.dotCell (v1 v2 : Ptr) {op : Ptr} (hp : op.New n) (sz : Nat) {off : M Int} (ho : Quiet n off fun _ => True) :
    Tri n m0 (Own k n L) (dotCell v1 v2 op sz off) (Post k n L) := by
  unfold Aitisa.dotCell
  own
own_add Tri.dotCell

/-- A step of a loop that may fail keeps what is owned. -/
def Step (k : Bool) (n : Nat) (L : List Tok) (r : α ⊕ Status) (m : Mem) : Prop :=
  match r with
  | .inl _ => Own k n L m
  | .inr st => st ≠ .success ∧ Own false n L m

theorem Tri.stepOk {a : α} : Tri n m0 (Own k n L) (Pure.pure (.inl a) : M (α ⊕ Status)) (Step k n L) := Tri.pure fun _ o => o

theorem Tri.stepBad {st : Status} {k' : Bool} {L' : List Tok} (h : st ≠ .success) (hL : L.Sublist L') :
    Tri n m0 (Own k' n L') (Pure.pure (.inr st) : M (α ⊕ Status)) (Step k n L) := Tri.pure fun _ o => ⟨h, o.sub hL⟩

/-- After such a step. -/
theorem Tri.bindStep {x : M (α ⊕ Status)} {f : α ⊕ Status → M β} {P : Mem → Prop} {Q : β → Mem → Prop} (hx : Tri n m0 P x (Step k n L))
    (hs : ∀ a, Tri n m0 (Own k n L) (f (.inl a)) Q)
    (hf : ∀ st, st ≠ .success → Tri n m0 (Own false n L) (f (.inr st)) Q) : Tri n m0 P (x >>= f) Q := by
  refine Tri.bind hx fun r => ?_
  cases r with
  | inl a => exact hs a
  | inr st => exact Tri.and (hf st)

theorem Tri.loopStep {f : Nat → σ → M (σ ⊕ Status)} (h : ∀ i s, Tri n m0 (Own k n L) (f i s) (Step k n L)) (c i : Nat) (s : σ) :
    Tri n m0 (Own k n L) (Aitisa.loopE f c i s) (Step k n L) :=
  (Tri.loopE (I := fun _ _ => Own k n L) (J := fun st m => st ≠ .success ∧ Own false n L m)
    (fun i s => (h i s).post fun r m hr => by cases r <;> exact hr) c i s).post fun r m hr => by cases r <;> exact hr

theorem Tri.forStep {f : Nat → σ → M (σ ⊕ Status)} (h : ∀ i s, Tri n m0 (Own k n L) (f i s) (Step k n L)) (c : Int) (s : σ) :
    Tri n m0 (Own k n L) (Aitisa.forI32E c s f) (Step k n L) := by
  unfold Aitisa.forI32E
  exact Tri.ite (fun _ => Tri.loopStep h _ _ _) fun _ => Tri.ub _

theorem Tri.dotStep (v : Vecs) {cell : Ptr → M (Status × Ptr)} (idx : List Int)
    (hc : ∀ x (L : List Tok), Tri n m0 (Own k n L) (cell x) (Post k n L)) :
    Tri n m0 (Own k n L) (dotStep v cell idx) (Step k n L) := by
  unfold Aitisa.dotStep Vecs.get
  refine Tri.bindOp (Op.slice _ _ _ _ _) (fun R _ => ?_) fun st p h => ?_
  · simp only [ne_eq, not_true_eq_false, if_false]
    refine Tri.bindPost (hc _ _) (fun R' _ => ?_) fun st p h => ?_
    · simp only [ne_eq, not_true_eq_false, if_false]
      refine Tri.bindDestroy 1 rfl (Tri.bindDestroy 0 rfl ?_)
      exact Tri.stepOk
    · simp only [ne_eq, h, not_false_eq_true, if_true]
      exact Tri.stepBad h (List.sublist_cons_self _ _)
  · simp only [ne_eq, h, not_false_eq_true, if_true]
    exact Tri.stepBad h (List.Sublist.refl _)

theorem Tri.tvFill (h1 h2 : Ptr) {t : Ptr} (ht : t.New n) (n1 : Int) (d1 : Arr) :
    Tri n m0 (Own k n L) (tvFill h1 h2 t n1 d1) (PostS k n L) := by
  unfold Aitisa.tvFill
  own
  refine Tri.bindStep (Tri.forStep (fun i s => Tri.dotStep _ _ fun x L => Tri.dotCell _ _ (by quiet_side) _ (Quiet.i32 _)) _ _) (fun _ => ?_) fun st h => ?_
  · own
  · own
own_add Tri.tvFill

theorem Op.dotCreate (h1 : Ptr) (o : List Int) (out : Ptr) : Op (dotCreate h1 o out) := by
  refine Op.of fun n m0 => ?_
  unfold Aitisa.dotCreate
  own
own_add Op.dotCreate

theorem Op.tvDot (h1 h2 out : Ptr) : Op (tvDot h1 h2 out) := by
  refine Op.of fun n m0 => ?_
  unfold Aitisa.tvDot
  own
own_add Op.tvDot

theorem Tri.mdRow (v1 v2 : Vecs) {op : Ptr} (hp : op.New n) (sz : Nat) (nv2 : Int) (i1 : Nat) (s : List Int × List Int) :
    Tri n m0 (Own k n L) (mdRow v1 v2 op sz nv2 i1 s) (Step k n L) := by
  unfold Aitisa.mdRow Vecs.get
  refine Tri.bindOp (Op.slice _ _ _ _ _) (fun R _ => ?_) fun st p h => ?_
  · simp only [ne_eq, not_true_eq_false, if_false]
    refine Tri.bindStep (Tri.forStep (fun i s => Tri.dotStep _ _ fun x L => Tri.dotCell _ _ hp _ (Quiet.mdOff _ _ _ _)) _ _) (fun _ => ?_) fun st h => ?_
    · exact Tri.bindDestroy 0 rfl Tri.stepOk
    · exact Tri.stepBad h (List.sublist_cons_self _ _)
  · simp only [ne_eq, h, not_false_eq_true, if_true]
    exact Tri.stepBad h (List.Sublist.refl _)

theorem Tri.mdFill (h1 h2 : Ptr) {t : Ptr} (ht : t.New n) (n1 n2 : Int) (d1 d2 : Arr) :
    Tri n m0 (Own k n L) (mdFill h1 h2 t n1 n2 d1 d2) (PostS k n L) := by
  unfold Aitisa.mdFill free6
  own
  refine Tri.bindStep (Tri.forStep (fun i s => Tri.mdRow _ _ (by quiet_side) _ _ _ _) _ _) (fun _ => ?_) fun st h => ?_
  · simp only [M.assoc]
    own
  · own
own_add Tri.mdFill

theorem Op.mdDot (h1 h2 out : Ptr) : Op (mdDot h1 h2 out) := by
  refine Op.of fun n m0 => ?_
  unfold Aitisa.mdDot
  own
own_add Op.mdDot

theorem Op.dot (h1 h2 out : Ptr) : Op (dot h1 h2 out) := by
  refine Op.of fun n m0 => ?_
  unfold Aitisa.dot
  own
own_add Op.dot

end Aitisa
