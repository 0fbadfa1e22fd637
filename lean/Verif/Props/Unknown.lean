import Verif.Proof.PoolingUnknown
import Verif.Proof.DotUnknown
import Verif.Props.Elementwise
import Verif.Props.Math
import Verif.Props.Dot
import Verif.Props.Conv
import Verif.Props.BatchNorm
import Verif.Props.Pooling

/-!
# C49: dtype codes outside the ten defined ones

`aitisa_full`, the binary operators, matmul, dot of two vectors or two matrices and batch normalisation index a table of
kernels with the code; the other operators dispatch through a switch that refuses it.
-/

namespace Aitisa

variable {E : Env} {m : Mem} {R R1 R2 : Foot} {T T1 T2 : TV}

/-- The call returns `STATUS_NOT_SUPPORTED` and changes no existing block. -/
def RefusesCode (E : Env) (x : M (Status × Ptr)) (m : Mem) : Prop :=
  ∃ o m', x E m = .ok (.notSupported, o) m' ∧ Frame m m' ∧ m'.WF

/-! ### Refused -/

/-- C49 for slice. -/
theorem C49_slice {ax : List Axis} (nf : E.NoFail) (wf : m.WF) (h : At m R T) (hc : 10 ≤ T.dtype.code) (h0 : T.dims ≠ [])
    (hf : SliceFits T.dims ax) (ha : AxFit ax) (out : Ptr) : RefusesCode E (slice R.h (bgs ax) (szs ax) (sts ax) out) m := by
  obtain ⟨R', m', e⟩ := slice_unknown nf wf h hc h0 hf ha out
  exact ⟨R'.h, m', e⟩

/-- C49 for duplicate. -/
theorem C49_duplicate (nf : E.NoFail) (wf : m.WF) (h : At m R T) (hc : 10 ≤ T.dtype.code) (h0 : T.dims ≠ [])
    (hd : ∀ d ∈ T.dims, 0 < d ∧ 0 ≤ toI32 d) (out : Ptr) : RefusesCode E (duplicate R.h out) m :=
  ⟨out, duplicate_unknown nf wf h hc h0 hd out⟩

/-- C49 for dropout with a rate in range. -/
theorem C49_dropout (nf : E.NoFail) (wf : m.WF) (h : At m R T) (hc : 10 ≤ T.dtype.code) (h0 : T.dims ≠ [])
    (hd : ∀ d ∈ T.dims, 0 < d ∧ 0 ≤ toI32 d) {rate : BitVec 64}
    (hr : ¬ (E.fp.lt64 rate (E.fp.ofInt64 0) = true ∨ E.fp.lt64 (E.fp.ofInt64 1) rate = true)) (out : Ptr) :
    RefusesCode E (dropout R.h rate out) m :=
  ⟨out, dropout_unknown nf wf h hc h0 hd hr out⟩

/-- C49 for softmax, whatever the axis. -/
theorem C49_softmax (nf : E.NoFail) (wf : m.WF) (h : At m R T) (hc : 10 ≤ T.dtype.code) (axis : Int) (out : Ptr) :
    RefusesCode E (softmax R.h axis out) m :=
  softmax_unknown nf wf h hc axis out

/-- C49 for pooling, whatever the mode. -/
theorem C49_pooling {B C fuel : Nat} {ws : List Win} (nf : E.NoFail) (wf : m.WF) (h : At m R T) (hc : 10 ≤ T.dtype.code)
    (hs : T.dims = B :: C :: ws.map Win.x) (hw : WinsOK ws) (h1 : 1 ≤ ws.length) (h3 : ws.length ≤ 3) (hB : 0 < B) (hC : 0 < C)
    (hso : ShapeOK (B :: C :: ws.map Win.out) T.dtype.size)
    (hX : prod (ws.map Win.x) ≤ 9223372036854775807) (hK : prod (ws.map Win.k) ≤ 9223372036854775807)
    (hf : prod (ws.map Win.k) ≤ fuel) (mode : String) (out : Ptr) :
    RefusesCode E (pooling fuel R.h mode (dimsCells (ws.map Win.k)) (dimsCells (ws.map Win.s)) (dimsCells (ws.map Win.p))
      (dimsCells (ws.map Win.d)) out) m :=
  ⟨out, pooling_unknown nf wf h hc hs hw h1 h3 hB hC hso hX hK hf mode out⟩

/-- C49 for convolution: memory is not touched. -/
theorem C49_conv (h : At m R T) (hc : 10 ≤ T.dtype.code) (j j' : Fall) (f : Ptr) (s p d : Arr) (groups : Int) (out : Ptr) :
    conv j j' R.h f s p d groups out E m = .ok (.notSupported, out) m :=
  (C42_dtype h (fun h => by rw [h] at hc; exact absurd hc (by decide)) j j' f s p d groups out).1

/-- C49 for dot with a scalar operand. -/
theorem C49_dot_scalar (h1 : At m R1 T1) (h2 : At m R2 T2) (hc : 10 ≤ T1.dtype.code) (s : T1.dims = [] ∨ T2.dims = []) (out : Ptr) :
    dot R1.h R2.h out E m = .ok (.notSupported, out) m :=
  dotScalar_unknown h1 h2 hc s out

/-- C49 for dot of a tensor of rank at least 2 and a vector. -/
theorem C49_dot_tensor_vector {bs : List Nat} {K : Nat} (nf : E.NoFail) (wf : m.WF) (h1 : At m R1 T1) (h2 : At m R2 T2) (hc : 10 ≤ T1.dtype.code)
    (c1 : T1.device.type = DEVICE_CPU) (c2 : T2.device.type = DEVICE_CPU) (ht : T1.dtype.code = T2.dtype.code)
    (hb : bs ≠ []) (s1 : T1.dims = bs ++ [K]) (s2 : T2.dims = [K]) (hK : K ≤ 2147483647) (hn : prod bs ≤ 2147483647) (hp : 0 < prod bs) (h0 : 0 < K)
    (out : Ptr) : RefusesCode E (dot R1.h R2.h out) m := by
  have hpos : 0 < bs.length := List.length_pos_iff.2 hb
  have e : dot R1.h R2.h out E m = tvDot R1.h R2.h out E m := by
    rw [dot_pass h1 h2 c1 c2 ht, s1, s2]
    simp only [List.length_append, List.length_singleton]
    rw [if_neg (by omega), if_neg (by omega), if_neg (by omega), if_pos (by omega)]
  have := tvDot_unknown nf wf h1 h2 hc s1 s2 hK hn hp h0 out
  unfold RefusesCode
  rwa [e]

/-- C49 for dot of two tensors of rank at least 3. -/
theorem C49_dot_tensors {b1 b2 : List Nat} {K l : Nat} (nf : E.NoFail) (wf : m.WF) (h1 : At m R1 T1) (h2 : At m R2 T2) (hc : 10 ≤ T1.dtype.code)
    (c1 : T1.device.type = DEVICE_CPU) (c2 : T2.device.type = DEVICE_CPU) (ht : T1.dtype.code = T2.dtype.code)
    (hb1 : 2 ≤ b1.length) (hb2 : b2 ≠ []) (s1 : T1.dims = b1 ++ [K]) (s2 : T2.dims = b2 ++ [K, l]) (hs : ShapeOK (b1 ++ b2 ++ [l]) T1.dtype.size)
    (h0 : 0 < K) (hK : K ≤ 2147483647) (hn1 : prod b1 ≤ 2147483647) (hp : 0 < prod b1) (out : Ptr) :
    RefusesCode E (dot R1.h R2.h out) m := by
  have hpos : 0 < b2.length := List.length_pos_iff.2 hb2
  have e : dot R1.h R2.h out E m = mdDot R1.h R2.h out E m := by
    rw [dot_pass h1 h2 c1 c2 ht, s1, s2]
    simp only [List.length_append, List.length_singleton, List.length_cons, List.length_nil]
    rw [if_neg (by omega), if_neg (by omega), if_neg (by omega), if_neg (by omega), if_pos (by omega)]
  have := mdDot_unknown nf wf h1 h2 hc s1 s2 hs h0 hK hn1 hp out
  unfold RefusesCode
  rwa [e]

/-! ### Not refused: the code indexes a table of ten kernels -/

/-- C49 is violated by `aitisa_full`, for every shape. -/
theorem C49_full_violated {dt : DType} (nf : E.NoFail) (wf : m.WF) (hc : 10 ≤ dt.code) (dev : Device) {ds : List Nat}
    (hs : ShapeOK ds dt.size) (value : BitVec 64) (out : Ptr) :
    full dt dev (dimsCells ds) ds.length value out E m = .ub .outOfBounds :=
  full_unknown nf wf hc dev hs value out

/-- C49 is violated by add, sub, mul and div, for every non-empty shape. -/
theorem C49_binary_violated {op : BinOp} (nf : E.NoFail) (mf : E.MallocOK) (wf : m.WF) (h1 : At m R1 T1)
    (h2 : At m R2 T2) (hc : 10 ≤ T1.dtype.code) (c1 : T1.device.type = DEVICE_CPU) (c2 : T2.device.type = DEVICE_CPU)
    (ht : T1.dtype.code = T2.dtype.code) (hd : T2.dims = T1.dims) (hp : 0 < prod T1.dims) (hi : prod T1.dims ≤ 2147483647) (out : Ptr) :
    binaryOp op R1.h R2.h out E m = .ub .outOfBounds :=
  binaryOp_unknown nf mf wf h1 h2 hc c1 c2 ht hd hp hi out

section
variable {b1 b2 bd : List Nat} {nM nK nN : Nat} (nf : E.NoFail) (wf : m.WF) (h1 : At m R1 T1) (h2 : At m R2 T2) (hc : 10 ≤ T1.dtype.code)
  (c1 : T1.device.type = DEVICE_CPU) (c2 : T2.device.type = DEVICE_CPU)
include nf wf h1 h2 hc c1 c2

/-- C49 is violated by matmul, for operands of rank 1 and 2 with matching inner dims. -/
theorem C49_matmul_violated (out : Ptr)
    (h : (T1.dims = [nK] ∧ T2.dims = [nK] ∧ ShapeOK [1] T1.dtype.size) ∨ (T1.dims = [nM, nK] ∧ T2.dims = [nK] ∧ ShapeOK [nM] T1.dtype.size) ∨
      (T1.dims = [nM, nK] ∧ T2.dims = [nK, nN] ∧ ShapeOK [nM, nN] T1.dtype.size) ∨ (T1.dims = [nK] ∧ T2.dims = [nK, nN] ∧ ShapeOK [nN] T1.dtype.size)) :
    matmul R1.h R2.h out E m = .ub .outOfBounds := by
  rcases h with ⟨s1, s2, hs⟩ | ⟨s1, s2, hs⟩ | ⟨s1, s2, hs⟩ | ⟨s1, s2, hs⟩
  · exact matVV_unknown nf wf h1 h2 hc c1 c2 s1 s2 hs
  · exact matMV_unknown nf wf h1 h2 hc c1 c2 s1 s2 hs
  · exact matMM_unknown nf wf h1 h2 hc c1 c2 s1 s2 hs
  · exact matVM_unknown nf wf h1 h2 hc c1 c2 s1 s2 hs

/-- C49 is violated by matmul with batches. -/
theorem C49_matmul_batched_violated (out : Ptr)
    (h : (b1 ≠ [] ∧ T1.dims = b1 ++ [nM, nK] ∧ T2.dims = [nK] ∧ ShapeOK (b1 ++ [nM]) T1.dtype.size) ∨
      (b2 ≠ [] ∧ T1.dims = [nK] ∧ T2.dims = b2 ++ [nK, nN] ∧ ShapeOK (b2 ++ [nN]) T1.dtype.size) ∨
      (T1.dims = b1 ++ [nM, nK] ∧ T2.dims = b2 ++ [nK, nN] ∧ Broadcasts b1 b2 bd ∧ bd.length = max b1.length b2.length ∧ 0 < bd.length ∧
        ShapeOK (bd ++ [nM, nN]) T1.dtype.size)) :
    matmul R1.h R2.h out E m = .ub .outOfBounds := by
  rcases h with ⟨hb, s1, s2, hs⟩ | ⟨hb, s1, s2, hs⟩ | ⟨s1, s2, hbc, hl, hp, hs⟩
  · exact matTV_unknown nf wf h1 h2 hc c1 c2 hb s1 s2 hs out
  · exact matVT_unknown nf wf h1 h2 hc c1 c2 hb s1 s2 hs out
  · exact matTT_unknown nf wf h1 h2 hc c1 c2 s1 s2 hbc hl hp hs out

/-- C49 is violated by dot of two vectors. -/
theorem C49_dot_violated (ht : T1.dtype.code = T2.dtype.code) (s1 : T1.dims = [nK]) (s2 : T2.dims = [nK]) (hs : ShapeOK [1] T1.dtype.size) (out : Ptr) :
    dot R1.h R2.h out E m = .ub .outOfBounds :=
  dotVV_unknown nf wf h1 h2 hc c1 c2 ht s1 s2 hs

/-- C49 is violated by dot of two matrices. -/
theorem C49_dot_matrices_violated (ht : T1.dtype.code = T2.dtype.code) (s1 : T1.dims = [nM, nK]) (s2 : T2.dims = [nK, nN])
    (hs : ShapeOK [nM, nN] T1.dtype.size) (out : Ptr) : dot R1.h R2.h out E m = .ub .outOfBounds := by
  rw [dot_pass h1 h2 c1 c2 ht, s1, s2]
  exact matMM_unknown nf wf h1 h2 hc c1 c2 s1 s2 hs

end

/-- C49 is violated by batch normalisation: arguments that meet all its requirements (`bnRequires`), of an unknown dtype. -/
theorem C49_batch_norm_violated {Rs Rb Rm Rv : Foot} {Sc Bi Me Va : TV} {axis : Int} {eps : BitVec 64} (nf : E.NoFail) (wf : m.WF)
    (h : At m R T) (hs : At m Rs Sc) (hb : At m Rb Bi) (hm : At m Rm Me) (hv : At m Rv Va) (hc : 10 ≤ T.dtype.code)
    (hr : ∀ p ∈ bnRequires E.fp T axis Sc Bi Me Va eps, p.1) (hsz : ShapeOK Va.dims T.dtype.size) (out : Ptr) :
    batchNorm R.h axis Rs.h Rb.h Rm.h Rv.h eps out E m = .ub .outOfBounds := by
  have hck : bnCheck R.h axis Rs.h Rb.h Rm.h Rv.h eps E m = .ok .success m := by
    obtain ⟨st, e, hf | ⟨rfl, _⟩⟩ := bnCheck_run (E := E) (axis := axis) (eps := eps) h hs hb hm hv
    · exact absurd hr hf.not_all
    · exact e
  have q1 := hr (2 ≤ T.dims.length ∧ T.dims.length ≤ 5, .dimensionsMismatch) (by simp [bnRequires])
  have q2 := hr (axis = 1 ∨ axis = T.dims.length - 1, .invalidArgument) (by simp [bnRequires])
  simp only at q1 q2
  by_cases ha : axis = 1
  · match hd : T.dims with
    | d :: C :: post =>
      exact batchNorm_unknown (pre := []) (post := post) (d := d) (C := C) nf wf h hv hc hck (by simp [hd]) (.inl rfl) (by simp [ha]) q1.2 hsz out
    | [] => simp [hd] at q1
    | [_] => simp [hd] at q1
  · obtain ⟨d, pre, C, hd⟩ : ∃ d pre C, T.dims = d :: (pre ++ [C]) := by
      match hd : T.dims with
      | [] => simp [hd] at q1
      | [_] => simp [hd] at q1
      | d :: x :: xs => exact ⟨d, (x :: xs).dropLast, (x :: xs).getLast (by simp), by rw [List.dropLast_concat_getLast]⟩
    have hl : T.dims.length = pre.length + 2 := by rw [hd]; simp
    exact batchNorm_unknown (pre := pre) (post := []) (d := d) (C := C) nf wf h hv hc hck hd (.inr rfl) (by omega) q1.2 hsz out

/-! ### Examples -/

theorem exU_wf : (Mem.empty.addT exU).WF := Mem.addT_wf Mem.empty_wf _

example : RefusesCode okEnv (slice Mem.empty.footT.h (bgs [⟨1, 1, 1⟩]) (szs [⟨1, 1, 1⟩]) (sts [⟨1, 1, 1⟩]) .null) (Mem.empty.addT exU) :=
  C49_slice (ax := [⟨1, 1, 1⟩]) okEnv_noFail exU_wf exU_at (by decide) (by decide) ⟨⟨by decide, by decide, by decide⟩, trivial⟩ (by simp [AxFit]) _

example : RefusesCode okEnv (duplicate Mem.empty.footT.h .null) (Mem.empty.addT exU) :=
  C49_duplicate okEnv_noFail exU_wf exU_at (by decide) (by decide) (by decide) _

example : RefusesCode okEnv (dropout Mem.empty.footT.h 1 .null) (Mem.empty.addT exU) :=
  C49_dropout okEnv_noFail exU_wf exU_at (by decide) (by decide) (by decide) (by decide) _

example : RefusesCode okEnv (softmax Mem.empty.footT.h 0 .null) (Mem.empty.addT exU) :=
  C49_softmax okEnv_noFail exU_wf exU_at (by decide) _ _

/-- An input for pooling of an unknown dtype. -/
def exUP : TV := ⟨⟨12, 1⟩, ⟨DEVICE_CPU, 0⟩, [1, 1, 4], [some 1, some 2, some 3, some 4]⟩

theorem exUP_at : At (Mem.empty.addT exUP) Mem.empty.footT exUP := addT_at _ _ (by decide) rfl ⟨by decide, by decide⟩

example : RefusesCode okEnv (pooling 10 Mem.empty.footT.h "avg" (dimsCells [2]) (dimsCells [2]) (dimsCells [1]) (dimsCells [2]) .indet)
    (Mem.empty.addT exUP) :=
  C49_pooling (ws := [exWin]) (B := 1) (C := 1) okEnv_noFail (Mem.addT_wf Mem.empty_wf _) exUP_at (by decide) rfl exWin_ok (by decide) (by decide)
    (by decide) (by decide) ⟨by decide, by decide⟩ (by decide) (by decide) (by decide) _ _

example : conv none none Mem.empty.footT.h .null [] [] [] 1 .indet okEnv (Mem.empty.addT exUP) = .ok (.notSupported, .indet) (Mem.empty.addT exUP) :=
  C49_conv exUP_at (by decide) _ _ _ _ _ _ _ _

example : dot Mem.empty.footS.h Mem.empty.footS.h .null okEnv (Mem.empty.addS ⟨10, 1⟩ ⟨DEVICE_CPU, 0⟩ [some 7]) =
    .ok (.notSupported, .null) (Mem.empty.addS ⟨10, 1⟩ ⟨DEVICE_CPU, 0⟩ [some 7]) :=
  C49_dot_scalar (addS_at _ _ _ _ rfl (by decide)) (addS_at _ _ _ _ rfl (by decide)) (by decide) (.inl rfl) _

/-- A 2 by 2 tensor, and a 1 by 2 by 2 tensor, of the dtype of `exU`. -/
def exU2 : TV := ⟨⟨10, 1⟩, ⟨DEVICE_CPU, 0⟩, [2, 2], [some 1, some 2, some 3, some 4]⟩
def exU3 : TV := ⟨⟨10, 1⟩, ⟨DEVICE_CPU, 0⟩, [1, 2, 2], [some 1, some 2, some 3, some 4]⟩

def exUMem : Mem := ((Mem.empty.addT exU).addT exU2).addT exU3
theorem exUMem_wf : exUMem.WF := Mem.addT_wf (Mem.addT_wf exU_wf _) _
theorem exUMem1 : At exUMem Mem.empty.footT exU := addT_old (Mem.addT_wf exU_wf _) (addT_old exU_wf exU_at _) _
theorem exUMem2 : At exUMem (Mem.empty.addT exU).footT exU2 :=
  addT_old (Mem.addT_wf exU_wf _) (addT_at _ _ (by decide) rfl ⟨by decide, by decide⟩) _
theorem exUMem3 : At exUMem ((Mem.empty.addT exU).addT exU2).footT exU3 := addT_at _ _ (by decide) rfl ⟨by decide, by decide⟩

example : RefusesCode okEnv (dot (Mem.empty.addT exU).footT.h Mem.empty.footT.h .null) exUMem :=
  C49_dot_tensor_vector (bs := [2]) (K := 2) okEnv_noFail exUMem_wf exUMem2 exUMem1 (by decide) rfl rfl rfl (by decide) rfl rfl (by decide) (by decide)
    (by decide) (by decide) _

example : RefusesCode okEnv (dot ((Mem.empty.addT exU).addT exU2).footT.h ((Mem.empty.addT exU).addT exU2).footT.h .null) exUMem :=
  C49_dot_tensors (b1 := [1, 2]) (b2 := [1]) (K := 2) (l := 2) okEnv_noFail exUMem_wf exUMem3 exUMem3 (by decide) rfl rfl rfl (by decide) (by decide)
    rfl rfl ⟨by decide, by decide⟩ (by decide) (by decide) (by decide) (by decide) _

example : full ⟨10, 4⟩ ⟨DEVICE_CPU, 0⟩ (dimsCells [2]) 1 0 .null okEnv Mem.empty = .ub .outOfBounds :=
  C49_full_violated (ds := [2]) okEnv_noFail Mem.empty_wf (by decide) _ ⟨by decide, by decide⟩ _ _

example : binaryOp .add Mem.empty.footT.h Mem.empty.footT.h .null okEnv exUMem = .ub .outOfBounds :=
  C49_binary_violated okEnv_noFail okEnv_malloc exUMem_wf exUMem1 exUMem1 (by decide) rfl rfl rfl rfl (by decide) (by decide) _

example : matmul (Mem.empty.addT exU).footT.h Mem.empty.footT.h .null okEnv exUMem = .ub .outOfBounds :=
  C49_matmul_violated (nM := 2) (nK := 2) (nN := 0) okEnv_noFail exUMem_wf exUMem2 exUMem1 (by decide) rfl rfl _
    (.inr (.inl ⟨rfl, rfl, by decide, by decide⟩))

example : matmul ((Mem.empty.addT exU).addT exU2).footT.h Mem.empty.footT.h .null okEnv exUMem = .ub .outOfBounds :=
  C49_matmul_batched_violated (b1 := [1]) (b2 := []) (bd := []) (nM := 2) (nK := 2) (nN := 0) okEnv_noFail exUMem_wf exUMem3 exUMem1 (by decide) rfl rfl _
    (.inl ⟨by decide, rfl, rfl, by decide, by decide⟩)

example : dot Mem.empty.footT.h Mem.empty.footT.h .null okEnv exUMem = .ub .outOfBounds :=
  C49_dot_violated okEnv_noFail exUMem_wf exUMem1 exUMem1 (by decide) rfl rfl rfl rfl rfl ⟨by decide, by decide⟩ _

example : dot (Mem.empty.addT exU).footT.h (Mem.empty.addT exU).footT.h .null okEnv exUMem = .ub .outOfBounds :=
  C49_dot_matrices_violated okEnv_noFail exUMem_wf exUMem2 exUMem2 (by decide) rfl rfl rfl rfl rfl ⟨by decide, by decide⟩ _

example : batchNorm ((Mem.empty.addT exU).addT exU2).footT.h 2 Mem.empty.footT.h Mem.empty.footT.h Mem.empty.footT.h Mem.empty.footT.h 1 .null okEnv exUMem =
    .ub .outOfBounds :=
  C49_batch_norm_violated okEnv_noFail exUMem_wf exUMem3 exUMem1 exUMem1 exUMem1 exUMem1 (by decide)
    (by simp [bnRequires, exU, exU3, Negative, okEnv, toyFp]) ⟨by decide, by decide⟩ _

end Aitisa
