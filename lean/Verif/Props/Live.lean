import Verif.Spec.Meets
import Verif.Props.History
import Verif.Props.Local
import Verif.Props.Core
import Verif.Props.Elementwise
import Verif.Props.Squeeze
import Verif.Props.Slice
import Verif.Props.Math
import Verif.Props.Matmul
import Verif.Props.Dot
import Verif.Props.Pooling
import Verif.Props.Conv
import Verif.Props.NN
import Verif.Props.BatchNorm

/-!
# C46: any history of calls that meet their preconditions is safe
-/

namespace Aitisa

variable {E : Env} {m m' : Mem} {x : M (Status × Ptr)} {out : Ptr} {T : TV} {P : TV → Prop} {W : World}

/-- Outcomes of a call that should give a tensor satisfying `P`. -/
def Gives (E : Env) (x : M (Status × Ptr)) (m : Mem) (b : Bool) (P : TV → Prop) : Prop :=
  (∃ T R m', P T ∧ x E m = .ok (.success, R.h) m' ∧ Produces m m' R T) ∨
  (¬ (E.NoFail ∧ E.MallocOK) ∧ ((∃ p m', x E m = .ok (.allocFailed, p) m' ∧ Frame m m' ∧ m'.WF) ∨ b = false ∧ x E m = .ub .nullDeref))

theorem Creates.gives (h : Creates E x m out T) (hP : P T) (b : Bool) : Gives E x m b P := by
  rcases h with ⟨R, m', e, p⟩ | ⟨m', e, f, w, n⟩
  · exact .inl ⟨T, R, m', hP, e, p⟩
  · exact .inr ⟨fun h => n h.1, .inl ⟨_, m', e, f, w⟩⟩

theorem Attempts.gives (h : Attempts E x m T) (hP : P T) : Gives E x m false P := by
  rcases h with ⟨R, m', e, p⟩ | ⟨n, ⟨p, m', e, f, w⟩ | e⟩
  · exact .inl ⟨T, R, m', hP, e, p⟩
  · exact .inr ⟨fun h => n h.1, .inl ⟨_, m', e, f, w⟩⟩
  · exact .inr ⟨fun h => n h.1, .inr ⟨rfl, e⟩⟩

theorem AttemptsMalloc.gives (h : AttemptsMalloc E x m T) (hP : P T) : Gives E x m false P := by
  rcases h with ⟨R, m', e, p⟩ | ⟨n, ⟨p, m', e, f, w⟩ | e⟩
  · exact .inl ⟨T, R, m', hP, e, p⟩
  · exact .inr ⟨fun h => n.elim (· h.1) (· h.2), .inl ⟨_, m', e, f, w⟩⟩
  · exact .inr ⟨fun h => n.elim (· h.1) (· h.2), .inr ⟨rfl, e⟩⟩

theorem Tries.gives (h : Tries E x m T) (hP : P T) (b : Bool) : Gives E x m b P := by
  rcases h with ⟨R, m', e, p⟩ | ⟨n, p, m', e, f, w⟩
  · exact .inl ⟨T, R, m', hP, e, p⟩
  · exact .inr ⟨fun h => n h.1, .inl ⟨_, m', e, f, w⟩⟩

theorem Leaves.gives (h : Leaves E x m out .success T) (hP : P T) : Gives E x m false P := by
  rcases h with ⟨R, m', e, p⟩ | ⟨n, ⟨m', e, f, w⟩ | e⟩
  · exact .inl ⟨T, R, m', hP, e, p⟩
  · exact .inr ⟨fun h => n h.1, .inl ⟨_, m', e, f, w⟩⟩
  · exact .inr ⟨fun h => n h.1, .inr ⟨rfl, e⟩⟩

theorem Gives.congr {y : M (Status × Ptr)} {b : Bool} (h : Gives E y m b P) (e : x E m = y E m) : Gives E x m b P := by
  simp only [Gives, e]; exact h

theorem Gives.crash (n : ¬ E.NoFail ∨ ¬ E.MallocOK) (e : x E m = .ub .nullDeref) : Gives E x m false P :=
  .inr ⟨fun h => n.elim (· h.1) (· h.2), .inr ⟨rfl, e⟩⟩

theorem DeliversMalloc.gives {c : Code} {dev : Device} {ds : List Nat} {zs : List Val} (h : DeliversMalloc E x m out c dev ds zs)
    (hP : P ⟨c.dtype, dev, ds, encAll c zs⟩) : Gives E x m false P :=
  h.elim (fun h => h.creates.gives hP _) fun h => .crash (.inr h.1) h.2

theorem DeliversCareless.gives {c : Code} {dev : Device} {ds : List Nat} {zs : List Val} (h : DeliversCareless E x m out c dev ds zs)
    (hP : P ⟨c.dtype, dev, ds, encAll c zs⟩) : Gives E x m false P :=
  h.elim (fun h => h.creates.gives hP _) fun h => .crash (.inl h.1) h.2

/-- A call that meets its preconditions. -/
theorem Meets.gives {D : Ptr → TV → Prop} {c : Call} {b : Bool} (h : Meets E D c b P) (wf : m.WF)
    (hD : ∀ p T, D p T → ∃ R : Foot, p = R.h ∧ At m R T) (out : Ptr) : Gives E (c.run out) m b P := by
  induction h with
  | create dt dev ds hs => exact (C01_create wf dt dev ds hs out).gives (by rfl) _
  | full c dev ds hs hi value v hv => exact (C10_full wf c dev ds hs hi value v hv out).creates.gives (by rfl) _
  | reshape hd ds hs hp =>
    obtain ⟨R, rfl, h⟩ := hD _ _ hd
    exact (C18_reshape wf h ds hs hp out).gives (by rfl) _
  | squeeze hd hp hnd hr =>
    obtain ⟨R, rfl, h⟩ := hD _ _ hd
    obtain ⟨ds', w, C⟩ := C19_squeeze (E := E) wf h hp hnd hr out
    exact C.gives ⟨ds', w, rfl⟩ _
  | slice hd he h0 hf ha hi =>
    obtain ⟨R, rfl, h⟩ := hD _ _ hd
    obtain ⟨ys, A, el, hv⟩ := C21_slice (E := E) wf h he h0 hf ha hi out
    exact A.gives ⟨ys, rfl, el, fun oc ho => (hv oc ho).2⟩
  | duplicate hd he h0 hp hi =>
    obtain ⟨R, rfl, h⟩ := hD _ _ hd
    rcases C24_copy (E := E) wf h he h0 hp hi out with C | ⟨n, e⟩
    · exact C.gives (by rfl) _
    · exact .crash (.inl n) e
  | binary d1 e1 d2 e2 c1 c2 hd hi hzl hz =>
    obtain ⟨R1, rfl, h1⟩ := hD _ _ d1
    obtain ⟨R2, rfl, h2⟩ := hD _ _ d2
    exact (C26_binary wf h1 e1 h2 e2 c1 c2 hd hi hzl hz out).gives (by rfl)
  | sqrt hd he hpos hr =>
    obtain ⟨R, rfl, h⟩ := hD _ _ hd
    obtain ⟨ys, C, hy⟩ := C30_sqrt wf h he hpos hr out
    exact C.creates.gives ⟨ys, rfl, hy⟩ _
  | relu hd he =>
    obtain ⟨R, rfl, h⟩ := hD _ _ hd
    obtain ⟨ys, C, hy⟩ := C35_relu (E := E) wf h he out
    exact C.creates.gives ⟨ys, rfl, hy⟩ _
  | sigmoid hc hd he =>
    obtain ⟨R, rfl, h⟩ := hD _ _ hd
    obtain ⟨ys, C, hy⟩ := C36_sigmoid (E := E) wf hc h he out
    exact C.creates.gives ⟨ys, rfl, hy⟩ _
  | tanh hc hd he =>
    obtain ⟨R, rfl, h⟩ := hD _ _ hd
    obtain ⟨ys, C, hy⟩ := C36_tanh (E := E) wf hc h he out
    exact C.creates.gives ⟨ys, rfl, hy⟩ _
  | softmaxAxis hd he ha hsz hes hy hys =>
    obtain ⟨R, rfl, h⟩ := hD _ _ hd
    exact (C37_axis wf h he ha hsz hes hy hys out).gives (by rfl) _
  | softmaxAll hd he hes hys =>
    obtain ⟨R, rfl, h⟩ := hD _ _ hd
    exact (C37_all wf h he hes hys out).gives (by rfl) _
  | dropout hd he h0 hp hi hr hn =>
    obtain ⟨R, rfl, h⟩ := hD _ _ hd
    rcases C43_dropout (E := E) wf h he h0 hp hi hr hn out with ⟨ys, k, z, hz, hy, C⟩ | ⟨n, e⟩
    · exact C.creates.gives ⟨ys, k, z, rfl, hz, hy⟩ _
    · exact .crash (.inl n) e
  | matVecVec d1 e1 d2 e2 c1 c2 hz s1 s2 hK hdot =>
    obtain ⟨R1, rfl, h1⟩ := hD _ _ d1
    obtain ⟨R2, rfl, h2⟩ := hD _ _ d2
    exact (C31_vector_vector wf h1 e1 h2 e2 c1 c2 hz s1 s2 hK hdot out).creates.gives (by rfl) _
  | matMatVec d1 e1 d2 e2 c1 c2 hz s1 s2 hM hK hzl hdot =>
    obtain ⟨R1, rfl, h1⟩ := hD _ _ d1
    obtain ⟨R2, rfl, h2⟩ := hD _ _ d2
    exact (C31_matrix_vector wf h1 e1 h2 e2 c1 c2 hz s1 s2 hM hK hzl hdot out).creates.gives (by rfl) _
  | matVecMat d1 e1 d2 e2 c1 c2 hz s1 s2 hK hN hzl hdot =>
    obtain ⟨R1, rfl, h1⟩ := hD _ _ d1
    obtain ⟨R2, rfl, h2⟩ := hD _ _ d2
    exact (C31_vector_matrix wf h1 e1 h2 e2 c1 c2 hz s1 s2 hK hN hzl hdot out).creates.gives (by rfl) _
  | matMatMat d1 e1 d2 e2 c1 c2 hz s1 s2 hs hM hK hN hi hzl hdot =>
    obtain ⟨R1, rfl, h1⟩ := hD _ _ d1
    obtain ⟨R2, rfl, h2⟩ := hD _ _ d2
    exact (C31_matrix_matrix wf h1 e1 h2 e2 c1 c2 hz s1 s2 hs hM hK hN hi hzl hdot out).creates.gives (by rfl) _
  | matTenVec d1 e1 d2 e2 c1 c2 hz s1 hb s2 hs hM hK hnb hi hzl hdot =>
    obtain ⟨R1, rfl, h1⟩ := hD _ _ d1
    obtain ⟨R2, rfl, h2⟩ := hD _ _ d2
    exact (C31_tensor_vector wf h1 e1 h2 e2 c1 c2 hz s1 hb s2 hs hM hK hnb hi hzl hdot out).gives (by rfl)
  | matVecTen d1 e1 d2 e2 c1 c2 hz s1 s2 hb hs hK hN hnb hi hzl hdot =>
    obtain ⟨R1, rfl, h1⟩ := hD _ _ d1
    obtain ⟨R2, rfl, h2⟩ := hD _ _ d2
    exact (C31_vector_tensor wf h1 e1 h2 e2 c1 c2 hz s1 s2 hb hs hK hN hnb hi hzl hdot out).gives (by rfl)
  | matTenTen d1 e1 d2 e2 c1 c2 hz s1 s2 hb hp1 hp2 hbc hs hM hK hN hnb hi hzl hdot =>
    obtain ⟨R1, rfl, h1⟩ := hD _ _ d1
    obtain ⟨R2, rfl, h2⟩ := hD _ _ d2
    exact (C31_tensor_tensor wf h1 e1 h2 e2 c1 c2 hz s1 s2 hb hp1 hp2 hbc hs hM hK hN hnb hi hzl hdot out).gives (by rfl)
  | dotVecVec d1 e1 d2 e2 c1 c2 hz0 hz s1 s2 hK hdot =>
    obtain ⟨R1, rfl, h1⟩ := hD _ _ d1
    obtain ⟨R2, rfl, h2⟩ := hD _ _ d2
    exact (C34_vector_vector wf h1 e1 h2 e2 c1 c2 hz0 hz s1 s2 hK hdot out).creates.gives (by rfl) _
  | dotMatMat d1 d2 c1 c2 hc s1 s2 _ ih =>
    obtain ⟨R1, rfl, h1⟩ := hD _ _ d1
    obtain ⟨R2, rfl, h2⟩ := hD _ _ d2
    exact ih.congr (show dot R1.h R2.h out E m = matmul R1.h R2.h out E m by
      rw [dot_pass h1 h2 c1 c2 (by rw [hc]), s1, s2]; rfl)
  | dotScalarLeft d1 e1 d2 e2 c1 c2 hs s1 hv hi hzl hz =>
    obtain ⟨R1, rfl, h1⟩ := hD _ _ d1
    obtain ⟨R2, rfl, h2⟩ := hD _ _ d2
    exact (C34_scalar_left_partial wf h1 e1 h2 e2 c1 c2 hs s1 hv hi hzl hz out).gives (by rfl)
  | dotScalarRight d1 e1 d2 e2 c1 c2 hs s1 s2 hv hi hzl hz =>
    obtain ⟨R1, rfl, h1⟩ := hD _ _ d1
    obtain ⟨R2, rfl, h2⟩ := hD _ _ d2
    exact (C34_scalar_right_partial wf h1 e1 h2 e2 c1 c2 hs s1 s2 hv hi hzl hz out).gives (by rfl)
  | dotTenVec d1 e1 d2 e2 c1 c2 hz0 hz s1 hb s2 hK hn h0 hzl hdot =>
    obtain ⟨R1, rfl, h1⟩ := hD _ _ d1
    obtain ⟨R2, rfl, h2⟩ := hD _ _ d2
    exact (C34_tensor_vector_partial wf h1 e1 h2 e2 c1 c2 hz0 hz s1 hb s2 hK hn h0 hzl hdot out).gives (by rfl)
  | dotTenTen d1 e1 d2 e2 c1 c2 hz0 hz s1 s2 hb1 hb2 h0 hK hn1 hn2 hs hzl hdot =>
    obtain ⟨R1, rfl, h1⟩ := hD _ _ d1
    obtain ⟨R2, rfl, h2⟩ := hD _ _ d2
    exact (C34_tensor_tensor_partial wf h1 e1 h2 e2 c1 c2 hz0 hz s1 s2 hb1 hb2 h0 hK hn1 hn2 hs hzl hdot out).gives (by rfl)
  | poolAvg hd he hs hw hw' hf hso hi hK f1 f2 hl hz =>
    obtain ⟨R, rfl, h⟩ := hD _ _ hd
    exact (C38_avg wf h he hs hw hw' hf hso hi hK f1 f2 hl hz out).gives (by rfl)
  | poolMax hd he hs hw hw' hf hso hi hK f1 f2 hl hz =>
    obtain ⟨R, rfl, h⟩ := hD _ _ hd
    exact (C38_max wf h he hs hw hw' hf hso hi hK f1 f2 hl hz out).gives (by rfl)
  | conv2d d1 d2 e1 e2 hr s1 s2 hf hso hC groups =>
    obtain ⟨R1, rfl, h1⟩ := hD _ _ d1
    obtain ⟨R2, rfl, h2⟩ := hD _ _ d2
    obtain ⟨zs, -, hz, L⟩ := C40_conv (E := E) wf h1 h2 e1 e2 s1 s2 hf hso hC .success .success groups out
    exact Gives.congr (Leaves.gives L ⟨zs, rfl, hz⟩)
      ((C42_same (E := E) h1 (some .success) (some .success) R2.h _ _ _ groups out).1 (by rw [s1]; simp [hr]))
  | conv3d d1 d2 e1 e2 hr s1 s2 hf hso hC groups =>
    obtain ⟨R1, rfl, h1⟩ := hD _ _ d1
    obtain ⟨R2, rfl, h2⟩ := hD _ _ d2
    obtain ⟨zs, -, hz, L⟩ := C40_conv (E := E) wf h1 h2 e1 e2 s1 s2 hf hso hC .success .success groups out
    exact Gives.congr (Leaves.gives L ⟨zs, rfl, hz⟩)
      ((C42_same (E := E) h1 (some .success) (some .success) R2.h _ _ _ groups out).2 (by rw [s1]; simp [hr]))
  | batchNorm hd ds db dm dv hx es eb em ev g gs gb gm gv axis eps hreq hpos hsm hden hn =>
    obtain ⟨R, rfl, h⟩ := hD _ _ hd
    obtain ⟨Rs, rfl, hs⟩ := hD _ _ ds
    obtain ⟨Rb, rfl, hb⟩ := hD _ _ db
    obtain ⟨Rm, rfl, hm⟩ := hD _ _ dm
    obtain ⟨Rv, rfl, hv⟩ := hD _ _ dv
    obtain ⟨zs, -, hz, A⟩ := C44_batchNorm_partial wf h hs hb hm hv hx es eb em ev g gs gb gm gv axis eps out hreq hpos hsm hden hn
    exact A.gives ⟨zs, rfl, hz⟩

/-- Outcomes of a call that should report `st`. -/
def Denies (E : Env) (x : M (Status × Ptr)) (m : Mem) (st : Status) : Prop :=
  ∃ st' p m', x E m = .ok (st', p) m' ∧ Frame m m' ∧ m'.WF ∧ (st' = st ∨ st' = .allocFailed ∧ ¬ E.NoFail)

theorem Denies.of (wf : m.WF) {st : Status} {p : Ptr} (e : x E m = .ok (st, p) m) : Denies E x m st :=
  ⟨st, p, m, e, ⟨Nat.le_refl _, fun _ _ => rfl⟩, wf, .inl rfl⟩

theorem RefusesWithOutput.denies {st : Status} (h : RefusesWithOutput E x m out st T) : Denies E x m st := by
  rcases h with ⟨R, m', e, p⟩ | ⟨m', e, f, w, n⟩
  · exact ⟨_, _, m', e, p.ext.toFrame, p.ext.wf, .inl rfl⟩
  · exact ⟨_, _, m', e, f, w, .inr ⟨rfl, n⟩⟩

/-- A call that violates a precondition the operator checks. -/
theorem Denied.denies {D : Ptr → TV → Prop} {c : Call} {st : Status} (h : Denied E D c st) (wf : m.WF)
    (hD : ∀ p T, D p T → ∃ R : Foot, p = R.h ∧ At m R T) (out : Ptr) : Denies E (c.run out) m st := by
  induction h with
  | reshape hd ds hs hp =>
    obtain ⟨R, rfl, h⟩ := hD _ _ hd
    exact .of wf (C18_mismatch h ds hs hp out)
  | squeezeCount hd axis hn =>
    obtain ⟨R, rfl, h⟩ := hD _ _ hd
    exact .of wf (C19_negative_count h axis hn out)
  | squeezeAxis hd hn =>
    obtain ⟨R, rfl, h⟩ := hD _ _ hd
    exact .of wf (C19_negative_axis h hn out)
  | slice hd hb hz ht hbad hsum =>
    obtain ⟨R, rfl, h⟩ := hD _ _ hd
    exact .of wf (C22_refuse_partial h hb hz ht hbad hsum out)
  | binaryDevice d1 d2 hd =>
    obtain ⟨R1, rfl, h1⟩ := hD _ _ d1
    obtain ⟨R2, rfl, h2⟩ := hD _ _ d2
    exact .of wf (C27_device h1 h2 hd out)
  | binaryType d1 d2 c1 c2 ht =>
    obtain ⟨R1, rfl, h1⟩ := hD _ _ d1
    obtain ⟨R2, rfl, h2⟩ := hD _ _ d2
    exact .of wf (C27_type h1 h2 c1 c2 ht out)
  | binaryDims d1 d2 c1 c2 ht hd =>
    obtain ⟨R1, rfl, h1⟩ := hD _ _ d1
    obtain ⟨R2, rfl, h2⟩ := hD _ _ d2
    exact .of wf (C27_dims h1 h2 c1 c2 ht hd out)
  | sqrt hd he hneg hr =>
    obtain ⟨R, rfl, h⟩ := hD _ _ hd
    rcases C30_negative wf h he hneg hr out with ⟨R', m', T', e, p, -⟩ | ⟨m', e, f, w, n⟩
    · exact ⟨_, _, m', e, p.ext.toFrame, p.ext.wf, .inl rfl⟩
    · exact ⟨_, _, m', e, f, w, .inr ⟨rfl, n⟩⟩
  | matDevice d1 d2 hd =>
    obtain ⟨R1, rfl, h1⟩ := hD _ _ d1
    obtain ⟨R2, rfl, h2⟩ := hD _ _ d2
    exact .of wf (C32_device h1 h2 hd out)
  | matRank d1 d2 c1 c2 hd =>
    obtain ⟨R1, rfl, h1⟩ := hD _ _ d1
    obtain ⟨R2, rfl, h2⟩ := hD _ _ d2
    exact .of wf (C32_rank0 h1 h2 c1 c2 hd out)
  | matInner d1 d2 c1 c2 i1 i2 hne =>
    obtain ⟨R1, rfl, h1⟩ := hD _ _ d1
    obtain ⟨R2, rfl, h2⟩ := hD _ _ d2
    exact .of wf (C32_inner_dims h1 h2 c1 c2 i1 i2 hne out)
  | dotUnsupported d1 d2 hd =>
    obtain ⟨R1, rfl, h1⟩ := hD _ _ d1
    obtain ⟨R2, rfl, h2⟩ := hD _ _ d2
    exact .of wf (C34_unsupported h1 h2 hd out)
  | dotRanks d1 d2 c1 c2 ht hr1 hr2 hr =>
    obtain ⟨R1, rfl, h1⟩ := hD _ _ d1
    obtain ⟨R2, rfl, h2⟩ := hD _ _ d2
    exact .of wf (C34_otherwise h1 h2 c1 c2 ht hr1 hr2 hr out)
  | dotVectors d1 d2 c1 c2 ht s1 s2 hk =>
    obtain ⟨R1, rfl, h1⟩ := hD _ _ d1
    obtain ⟨R2, rfl, h2⟩ := hD _ _ d2
    exact .of wf (C34_vector_mismatch h1 h2 c1 c2 ht s1 s2 hk out)
  | dotTenVec d1 d2 c1 c2 ht s1 hb s2 hk =>
    obtain ⟨R1, rfl, h1⟩ := hD _ _ d1
    obtain ⟨R2, rfl, h2⟩ := hD _ _ d2
    exact .of wf (C34_tensor_vector_mismatch h1 h2 c1 c2 ht s1 hb s2 hk out)
  | dotTenTen d1 d2 c1 c2 ht s1 s2 hb1 hb2 hk =>
    obtain ⟨R1, rfl, h1⟩ := hD _ _ d1
    obtain ⟨R2, rfl, h2⟩ := hD _ _ d2
    exact .of wf (C34_tensor_tensor_mismatch h1 h2 c1 c2 ht s1 s2 hb1 hb2 hk out)
  | conv2d hd hr j j' s p d groups =>
    obtain ⟨R, rfl, h⟩ := hD _ _ hd
    exact .of wf (C42_conv2d h hr j j' _ s p d groups out)
  | conv3d hd hr j j' s p d groups =>
    obtain ⟨R, rfl, h⟩ := hD _ _ hd
    exact .of wf (C42_conv3d h hr j j' _ s p d groups out)
  | conv2dType hd hr hc j j' s p d groups =>
    obtain ⟨R, rfl, h⟩ := hD _ _ hd
    exact .of wf ((C42_dtype h hc j j' _ s p d groups out).2.1 hr)
  | conv3dType hd hr hc j j' s p d groups =>
    obtain ⟨R, rfl, h⟩ := hD _ _ hd
    exact .of wf ((C42_dtype h hc j j' _ s p d groups out).2.2 hr)
  | poolRank hd hr fuel mode k s p d =>
    obtain ⟨R, rfl, h⟩ := hD _ _ hd
    exact .of wf (C38_rank h hr mode k s p d out)
  | poolLarge hd hs hw hw' hsm hbig mode s =>
    obtain ⟨R, rfl, h⟩ := hD _ _ hd
    obtain ⟨m', e, f, w, -⟩ := C38_too_large (E := E) wf h hs hw hw' hsm hbig mode s out
    exact ⟨_, _, m', e, f, w, .inl rfl⟩
  | sigmoid hd hc =>
    obtain ⟨R, rfl, h⟩ := hD _ _ hd
    exact (C36_sigmoid_refuses wf h hc out).denies
  | tanh hd hc =>
    obtain ⟨R, rfl, h⟩ := hD _ _ hd
    exact (C36_tanh_refuses wf h hc out).denies
  | softmax hd ha =>
    obtain ⟨R, rfl, h⟩ := hD _ _ hd
    exact .of wf (C37_refused h ha out)
  | dropout hd hr =>
    obtain ⟨R, rfl, h⟩ := hD _ _ hd
    exact .of wf (C43_refused hr out)
  | batchNorm hd ds db dm dv axis eps hf hst =>
    obtain ⟨R, rfl, h⟩ := hD _ _ hd
    obtain ⟨Rs, rfl, hs⟩ := hD _ _ ds
    obtain ⟨Rb, rfl, hb⟩ := hD _ _ db
    obtain ⟨Rm, rfl, hm⟩ := hD _ _ dm
    obtain ⟨Rv, rfl, hv⟩ := hD _ _ dv
    exact .of wf (C45_refused h hs hb hm hv axis eps out hf)

theorem Denied.failure {D : Ptr → TV → Prop} {c : Call} {st : Status} (h : Denied E D c st) : st ≠ .success := by
  cases h <;> first | assumption | decide

/-! ## The held tensors -/

theorem Live.get (h : Live m W) {p : Ptr} (hm : (p, T) ∈ W) : ∃ R : Foot, p = R.h ∧ At m R T := by
  obtain ⟨-, Rs, e, hA, -⟩ := h
  obtain ⟨i, hi⟩ := List.mem_iff_getElem?.1 hm
  have : (Rs.map Foot.h)[i]? = some p := by rw [← e, List.getElem?_map, hi]; rfl
  obtain ⟨R, hR, rfl⟩ := held_get this
  exact ⟨R, rfl, hA i R _ hR hi⟩

theorem Live.frame (h : Live m W) (f : Frame m m') (wf : m'.WF) : Live m' W := by
  obtain ⟨wf0, Rs, e, hA, nd⟩ := h
  exact ⟨wf, Rs, e, fun i R w h1 h2 => (hA i R w h1 h2).frame wf0 f, nd⟩

theorem Live.add (h : Live m W) {R : Foot} (p : Produces m m' R T) : Live m' ((R.h, T) :: W) := by
  obtain ⟨wf0, Rs, e, hA, nd⟩ := h
  refine ⟨p.ext.wf, R :: Rs, by simp [e], fun i R' w h1 h2 => ?_, ?_⟩
  · cases i with
    | zero => cases h1; cases h2; exact p.tensor
    | succ i => exact (hA i R' w h1 h2).frame wf0 p.ext.toFrame
  · refine List.nodup_append.2 ⟨p.tensor.nodup, nd, fun a ha b hb hab => ?_⟩
    obtain ⟨R', hR', hb⟩ := List.mem_flatMap.1 hb
    obtain ⟨i, hi⟩ := List.mem_iff_getElem?.1 hR'
    have : i < W.length := by
      have := congrArg List.length e
      simp only [List.length_map] at this
      rw [this]
      exact (List.getElem?_eq_some_iff.1 hi).1
    have := (hA i R' W[i] hi (List.getElem?_eq_getElem this)).lt wf0 hb
    have := p.fresh a ha
    omega

theorem feet_disjoint {Rs : List Foot} (nd : (Rs.flatMap Foot.list).Nodup) {i j : Nat} {R R' : Foot} (hi : Rs[i]? = some R)
    (hj : Rs[j]? = some R') (hne : i ≠ j) {b : Nat} (hb : b ∈ R.list) : b ∉ R'.list := by
  induction Rs generalizing i j with
  | nil => cases hi
  | cons R0 Rs ih =>
    obtain ⟨n1, n2, n3⟩ := List.nodup_append.1 (show (R0.list ++ Rs.flatMap Foot.list).Nodup from nd)
    cases i with
    | zero =>
      cases j with
      | zero => exact (hne rfl).elim
      | succ j =>
        cases hi
        exact fun hb' => n3 b hb b (List.mem_flatMap.2 ⟨R', List.mem_of_getElem? hj, hb'⟩) rfl
    | succ i =>
      cases j with
      | zero =>
        cases hj
        exact fun hb' => n3 b hb' b (List.mem_flatMap.2 ⟨R, List.mem_of_getElem? hi, hb⟩) rfl
      | succ j => exact ih n2 hi hj fun e => hne (by rw [e])

theorem Live.nth (h : Live m W) {i : Nat} {w : Ptr × TV} (hi : W[i]? = some w) {Rs : List Foot} (e : W.map Prod.fst = Rs.map Foot.h) :
    ∃ R : Foot, Rs[i]? = some R ∧ w.1 = R.h := by
  refine held_get ?_
  rw [← e, List.getElem?_map, hi]; rfl

theorem Live.write (h : Live m W) {i j : Nat} {p : Ptr} {v : List Byte} (hi : W[i]? = some (p, T)) (hj : j < prod T.dims)
    (hv : T.dtype.size ≤ v.length) :
    ∃ T' m', setItem p j v E m = .ok () m' ∧ Written T j v T' ∧ Live m' (W.set i (p, T')) := by
  have h' := h
  obtain ⟨wf, Rs, e, hA, nd⟩ := h
  obtain ⟨R, hR, hp⟩ := h'.nth hi e
  have hp : p = R.h := hp
  subst hp
  have a : At m R T := hA i R _ hR hi
  have hle : j * T.dtype.size + T.dtype.size ≤ T.bytes.length := by
    rw [a.len, ← Nat.succ_mul]; exact Nat.mul_le_mul_right _ hj
  have hsm := a.shape.bytes_le
  rw [← a.len] at hsm
  have ht : (v.take T.dtype.size).length = T.dtype.size := by simp [hv]
  have hlen : (splice T.bytes (j * T.dtype.size) (v.take T.dtype.size)).length = T.bytes.length := splice_length (by rw [ht]; exact hle)
  refine ⟨{ T with bytes := splice T.bytes (j * T.dtype.size) (v.take T.dtype.size) },
    m.set R.p (some ⟨.own, .bytes (splice T.bytes (j * T.dtype.size) (v.take T.dtype.size))⟩), ?_, ⟨rfl, rfl, rfl, fun k => ?_⟩, ?_, Rs, ?_,
    fun k R' w h1 h2 => ?_, nd⟩
  · unfold setItem
    have : i64 ((j : Int) * (T.dtype.size : Int)) E m = .ok ((j * T.dtype.size : Nat) : Int) m := by
      have : ((j : Int) * (T.dtype.size : Int)) = ((j * T.dtype.size : Nat) : Int) := by simp
      rw [this]
      exact run_i64_nat (n := j * T.dtype.size) (by omega) E m
    msimp [a.tData, a.tDtype, this, a.derefB]
    rw [if_pos (by omega), run_putBody a.data, Int.toNat_natCast]
  · simp only
    rw [splice_get (by rw [ht]; exact hle), ht, Nat.succ_mul]
    by_cases h1 : k < j * T.dtype.size
    · rw [if_pos h1, if_neg (by omega)]
    · rw [if_neg h1]
      by_cases h2 : k < j * T.dtype.size + T.dtype.size
      · rw [if_pos h2, if_pos (by omega), List.getElem?_take, if_pos (by omega)]
      · rw [if_neg h2, if_neg (by omega)]
  · intro b hb
    have := Frame.lt_next wf a.data
    rw [Mem.set_blk_ne _ _ (by simp only [Mem.set] at hb; omega)]
    exact wf b hb
  · rw [List.map_set, e]
    exact List.ext_getElem? fun k => by
      rw [List.getElem?_set]
      split
      · next h => subst h; rw [List.getElem?_map, hR, if_pos (by simpa using (List.getElem?_eq_some_iff.1 hR).1)]; rfl
      · rfl
  · rw [List.getElem?_set] at h2
    split at h2
    · next h =>
      subst h
      cases h1.symm.trans hR
      split at h2
      · cases h2
        exact a.setData hlen
      · cases h2
    · next h =>
      exact (hA k R' w h1 h2).set_ne (feet_disjoint nd hR h1 h (by simp [mem_foot])) _

theorem At.tenOk {R : Foot} (h : At m R T) : TenOk m R where
  tensor := ⟨_, h.tensor, rfl, rfl, rfl⟩
  storage := ⟨_, h.storage, rfl⟩
  data := ⟨_, h.data⟩
  dims := fun d hd => by
    obtain ⟨k, hk⟩ := h.live (b := d) (by simp [mem_foot, hd])
    exact ⟨k, hk⟩
  layout := fun l hl => by
    obtain ⟨k, hk⟩ := h.live (b := l) (by simp [mem_foot, hl])
    exact ⟨k, hk⟩

theorem Live.drop (h : Live m W) {i : Nat} {w : Ptr × TV} (hi : W[i]? = some w) :
    ∃ m', destroy w.1 E m = .ok (.success, .null) m' ∧ Live m' (W.eraseIdx i) := by
  have h' := h
  obtain ⟨wf, Rs, e, hA, nd⟩ := h
  obtain ⟨R, hR, hp⟩ := h'.nth hi e
  have a := hA i R _ hR hi
  obtain ⟨m', e', hn, hb⟩ := destroy_own (E := E) a.tenOk a.nodup
  refine ⟨m', hp ▸ e', fun b hle => ?_, Rs.eraseIdx i, ?_, fun k R' w' h1 h2 => ?_, ?_⟩
  · rw [hb, wf b (hn.1 ▸ hle)]; simp
  · rw [← map_eraseIdx', e, map_eraseIdx']
  · rw [List.getElem?_eraseIdx] at h1 h2
    have key : ∀ k', k' ≠ i → Rs[k']? = some R' → W[k']? = some w' → At m' R' w'.2 := fun k' hne h1 h2 =>
      (hA k' R' w' h1 h2).congr fun b hb' => by rw [hb, if_neg (feet_disjoint nd h1 hR hne hb')]
    split at h1
    · next hk => rw [if_pos hk] at h2; exact key k (by omega) h1 h2
    · next hk => rw [if_neg hk] at h2; exact key (k + 1) (by omega) h1 h2
  · refine nd.sublist ?_
    have := List.eraseIdx_sublist Rs i
    generalize Rs.eraseIdx i = Ks at this
    clear hA nd hR e
    induction this with
    | slnil => exact .slnil
    | cons a _ ih => exact ih.trans (List.sublist_append_right _ _)
    | cons_cons a _ ih => exact (List.Sublist.refl _).append ih

/-! ## Programs -/

theorem safe_step (h : Live m W) {a : Act} {b : Bool} {Q : Status → World → Prop} (ha : Allowed E W a b Q) :
    (∃ st W' m', a.run (W.map Prod.fst) E m = .ok (st, W'.map Prod.fst) m' ∧
      (Q st W' ∨ ¬ (E.NoFail ∧ E.MallocOK) ∧ st = .allocFailed ∧ W' = W) ∧ Live m' W') ∨
    (b = false ∧ ¬ (E.NoFail ∧ E.MallocOK) ∧ a.run (W.map Prod.fst) E m = .ub .nullDeref) := by
  cases ha with
  | @call c b P hm =>
    rcases hm.gives h.1 (fun p T => h.get) .indet with ⟨T, R, m', hP, e, p⟩ | ⟨n, ⟨p, m', e, f, w⟩ | ⟨rfl, e⟩⟩
    · refine .inl ⟨.success, (R.h, T) :: W, m', ?_, .inl ⟨rfl, _, _, hP, rfl⟩, h.add p⟩
      simp only [Act.run]
      rw [run_bind, e]; rfl
    · refine .inl ⟨.allocFailed, W, m', ?_, .inr ⟨n, rfl, rfl⟩, h.frame f w⟩
      simp only [Act.run]
      rw [run_bind, e]; rfl
    · refine .inr ⟨rfl, n, ?_⟩
      simp only [Act.run]
      rw [run_bind, e]; rfl
  | @denied c st hd =>
    obtain ⟨st', p, m', e, f, w, hst⟩ := hd.denies h.1 (fun p T => h.get) .indet
    have hs : st' ≠ .success := by
      rcases hst with rfl | ⟨rfl, -⟩
      · exact hd.failure
      · decide
    refine .inl ⟨st', W, m', ?_, ?_, h.frame f w⟩
    · simp only [Act.run]
      rw [run_bind, e]
      simp only [Res.andThen, run_pure, if_neg hs]
    · rcases hst with rfl | ⟨rfl, n⟩
      · exact .inl ⟨rfl, rfl⟩
      · exact .inr ⟨fun h => n h.1, rfl, rfl⟩
  | cast hd he hne hs hc =>
    obtain ⟨R, rfl, a⟩ := h.get hd
    obtain ⟨ys, D, hy⟩ := C11_cast h.1 a he hne hs hc .null
    rcases D.creates with ⟨R', m', e, p⟩ | ⟨m', e, f, w, n⟩
    · refine .inl ⟨.success, _, m', ?_, .inl ⟨rfl, R'.h, ys, hy, rfl⟩, h.add p⟩
      simp only [Act.run]
      rw [run_bind, e]; rfl
    · refine .inl ⟨.allocFailed, W, m', ?_, .inr ⟨fun h => n h.1, rfl, rfl⟩, h.frame f w⟩
      simp only [Act.run]
      rw [run_bind, e]; rfl
  | castSame hd sz =>
    obtain ⟨R, rfl, a⟩ := h.get hd
    refine .inl ⟨.success, W, m, ?_, .inl ⟨rfl, rfl⟩, h⟩
    simp only [Act.run]
    rw [run_bind, C12_same_type a]; rfl
  | @setItem p T i j v hi hj hv =>
    obtain ⟨T', m', e, hw, hl⟩ := h.write (E := E) hi hj hv
    refine .inl ⟨.success, _, m', ?_, .inl ⟨rfl, T', hw, rfl⟩, hl⟩
    simp only [Act.run]
    have hg : (W.map Prod.fst)[i]? = some p := by rw [List.getElem?_map, hi]; rfl
    rw [hg]
    simp only
    rw [run_bind, e, List.map_set]
    simp only [Res.andThen, run_pure]
    congr 2
    exact List.ext_getElem? fun k => by
      rw [List.getElem?_set]
      split
      · next h => subst h; rw [if_pos (List.getElem?_eq_some_iff.1 hg).1, hg]
      · rfl
  | @destroy i hi =>
    obtain ⟨m', e, hl⟩ := h.drop (E := E) (List.getElem?_eq_getElem hi)
    refine .inl ⟨.success, _, m', ?_, .inl ⟨rfl, rfl⟩, hl⟩
    simp only [Act.run]
    rw [List.getElem?_map, List.getElem?_eq_getElem hi]
    simp only [Option.map_some]
    rw [run_bind, e]
    simp only [Res.andThen, run_pure, map_eraseIdx']

theorem Meets.unlimited {D : Ptr → TV → Prop} {c : Call} {b : Bool} (h : Meets E D c b P) : Meets E.unlimited D c b P := by
  induction h with
  | create => apply Meets.create <;> assumption
  | full => apply Meets.full <;> assumption
  | reshape => apply Meets.reshape <;> assumption
  | squeeze => apply Meets.squeeze <;> assumption
  | slice => apply Meets.slice <;> assumption
  | duplicate => apply Meets.duplicate <;> assumption
  | binary => apply Meets.binary <;> assumption
  | sqrt => apply Meets.sqrt <;> assumption
  | relu => apply Meets.relu <;> assumption
  | sigmoid => apply Meets.sigmoid <;> assumption
  | tanh => apply Meets.tanh <;> assumption
  | softmaxAxis => apply Meets.softmaxAxis <;> assumption
  | softmaxAll => apply Meets.softmaxAll <;> assumption
  | dropout => apply Meets.dropout <;> assumption
  | matVecVec => apply Meets.matVecVec <;> assumption
  | matMatVec => apply Meets.matMatVec <;> assumption
  | matVecMat => apply Meets.matVecMat <;> assumption
  | matMatMat => apply Meets.matMatMat <;> assumption
  | matTenVec => apply Meets.matTenVec <;> assumption
  | matVecTen => apply Meets.matVecTen <;> assumption
  | matTenTen => apply Meets.matTenTen <;> assumption
  | dotVecVec => apply Meets.dotVecVec <;> assumption
  | dotMatMat d1 d2 c1 c2 hc s1 s2 _ ih => exact .dotMatMat d1 d2 c1 c2 hc s1 s2 ih
  | dotScalarLeft => apply Meets.dotScalarLeft <;> assumption
  | dotScalarRight => apply Meets.dotScalarRight <;> assumption
  | dotTenVec => apply Meets.dotTenVec <;> assumption
  | dotTenTen => apply Meets.dotTenTen <;> assumption
  | poolAvg => apply Meets.poolAvg <;> assumption
  | poolMax => apply Meets.poolMax <;> assumption
  | conv2d => apply Meets.conv2d <;> assumption
  | conv3d => apply Meets.conv3d <;> assumption
  | batchNorm => apply Meets.batchNorm <;> assumption

theorem Denied.unlimited {D : Ptr → TV → Prop} {c : Call} {st : Status} (h : Denied E D c st) : Denied E.unlimited D c st := by
  cases h with
  | reshape => apply Denied.reshape <;> assumption
  | squeezeCount => apply Denied.squeezeCount <;> assumption
  | squeezeAxis => apply Denied.squeezeAxis <;> assumption
  | slice => apply Denied.slice <;> assumption
  | binaryDevice => apply Denied.binaryDevice <;> assumption
  | binaryType => apply Denied.binaryType <;> assumption
  | binaryDims => apply Denied.binaryDims <;> assumption
  | sqrt => apply Denied.sqrt <;> assumption
  | matDevice => apply Denied.matDevice <;> assumption
  | matRank => apply Denied.matRank <;> assumption
  | matInner => apply Denied.matInner <;> assumption
  | dotUnsupported => apply Denied.dotUnsupported <;> assumption
  | dotRanks => apply Denied.dotRanks <;> assumption
  | dotVectors => apply Denied.dotVectors <;> assumption
  | dotTenVec => apply Denied.dotTenVec <;> assumption
  | dotTenTen => apply Denied.dotTenTen <;> assumption
  | conv2d => apply Denied.conv2d <;> assumption
  | conv3d => apply Denied.conv3d <;> assumption
  | conv2dType => apply Denied.conv2dType <;> assumption
  | conv3dType => apply Denied.conv3dType <;> assumption
  | poolRank => apply Denied.poolRank <;> assumption
  | poolLarge => apply Denied.poolLarge <;> assumption
  | sigmoid => apply Denied.sigmoid <;> assumption
  | tanh => apply Denied.tanh <;> assumption
  | softmax => apply Denied.softmax <;> assumption
  | dropout => apply Denied.dropout <;> assumption
  | batchNorm => apply Denied.batchNorm <;> assumption

theorem Allowed.unlimited {a : Act} {b : Bool} {Q : Status → World → Prop} (h : Allowed E W a b Q) : Allowed E.unlimited W a b Q := by
  cases h with
  | call h => exact .call h.unlimited
  | denied h => exact .denied h.unlimited
  | cast hd he hne hs hc => exact .cast hd he hne hs hc
  | castSame hd sz => exact .castSame hd sz
  | setItem hi hj hv => exact .setItem hi hj hv
  | destroy hi => exact .destroy hi

/-- A step, with the reason for a failure. -/
theorem safe_step' (h : Live m W) {a : Act} {b : Bool} {Q : Status → World → Prop} (ha : Allowed E W a b Q) :
    (∃ st W' m', a.run (W.map Prod.fst) E m = .ok (st, W'.map Prod.fst) m' ∧
      (Q st W' ∨ ¬ Granted m m' ∧ st = .allocFailed ∧ W' = W) ∧ Live m' W') ∨
    (b = false ∧ a.run (W.map Prod.fst) E m = .ub .nullDeref ∧ Refused E (a.run (W.map Prod.fst)) m) := by
  have nu : E.unlimited.NoFail ∧ E.unlimited.MallocOK := ⟨fun _ _ => rfl, fun _ _ => rfl⟩
  have sc := (Local.act a (W.map Prod.fst)).selfContained
  obtain ⟨st2, W2, m2, e2, hq2, hl2⟩ : ∃ st W' m', a.run (W.map Prod.fst) E.unlimited m = .ok (st, W'.map Prod.fst) m' ∧
      Q st W' ∧ Live m' W' := by
    rcases safe_step h ha.unlimited with ⟨st, W', m', e, hq, hl⟩ | ⟨-, n, -⟩
    · exact ⟨st, W', m', e, hq.resolve_right fun h => h.1 nu, hl⟩
    · exact absurd nu n
  rcases safe_step h ha with ⟨st, W', m', e, hq, hl⟩ | ⟨hb, -, e⟩
  · rcases hq with hq | ⟨-, rfl, rfl⟩
    · exact .inl ⟨st, W', m', e, .inl hq, hl⟩
    · by_cases hg : Granted m m'
      · have := sc E m _ m' e E.unlimited _ (apart_none m)
          ⟨rfl, fun h => h, .inr ⟨hg, fun _ _ => ⟨fun _ => rfl, fun _ => rfl⟩⟩, fun _ _ _ => rfl⟩
        rw [plus_none, plus_none, e2] at this
        simp only [Res.ok.injEq, Prod.mk.injEq] at this
        obtain ⟨⟨rfl, hw⟩, rfl⟩ := this
        exact .inl ⟨_, W2, _, hw ▸ e, .inl hq2, hl2⟩
      · exact .inl ⟨_, _, m', e, .inr ⟨hg, rfl, rfl⟩, hl⟩
  · refine .inr ⟨hb, e, _, m2, e2, Classical.byContradiction fun hn => ?_⟩
    have hall : SameAnswers E.unlimited E m m2 := fun t s h1 h2 => by
      constructor
      · show E.allocOk t s = true
        exact Classical.byContradiction fun hf => hn ⟨t, s, h1, h2, .inl (by simpa using hf)⟩
      · show E.mallocOk t s = true
        exact Classical.byContradiction fun hf => hn ⟨t, s, h1, h2, .inr (by simpa using hf)⟩
    have := sc E.unlimited m _ m2 e2 E _ (apart_none m) ⟨rfl, fun h => h, .inl hall, fun _ _ _ => rfl⟩
    rw [plus_none, plus_none, e] at this
    cases this

/-- C46, as far as it holds. A program that only makes calls meeting their preconditions can run for any number of calls, whatever the
allocator does: see `SafeFor`. What is missing: operators that do not check their allocations may crash when one is refused; there the
property is false, see `C46_crash_violated`. -/
theorem C46_histories_partial (h : Live m W) (k : Nat) : SafeFor E k W m := by
  induction k generalizing m W with
  | zero => exact h
  | succ k ih =>
    refine ⟨h, fun a b Q ha => ?_⟩
    rcases safe_step' h ha with ⟨st, W', m', e, hq, hl⟩ | h
    · exact .inl ⟨st, W', m', e, hq, ih hl⟩
    · exact .inr h

/-- C46 in full for an allocator that does not fail: there is no undefined behaviour and every call does what it should. -/
theorem C46_plenty (nf : E.NoFail) (mo : E.MallocOK) {k : Nat} (h : SafeFor E (k + 1) W m) {a : Act} {b : Bool}
    {Q : Status → World → Prop} (ha : Allowed E W a b Q) :
    ∃ st W' m', a.run (W.map Prod.fst) E m = .ok (st, W'.map Prod.fst) m' ∧ Q st W' ∧ SafeFor E k W' m' := by
  rcases h.2 a b Q ha with ⟨st, W', m', e, hq, hs⟩ | ⟨-, -, _, _, -, t, s, -, -, hf⟩
  · exact ⟨st, W', m', e, hq.resolve_right fun h => h.1 ((Local.act a _).granted nf mo e), hs⟩
  · rcases hf with hf | hf
    · rw [nf] at hf; cases hf
    · rw [mo] at hf; cases hf

/-- C46 for a program that starts with nothing. -/
theorem C46_start_partial (k : Nat) : SafeFor E k [] Mem.empty :=
  C46_histories_partial ⟨Mem.empty_wf, [], rfl, fun _ _ _ h => (by cases h), List.nodup_nil⟩ k

/-- One held tensor. -/
theorem live_one : Live exMem [(Mem.empty.footT.h, exA)] := by
  refine ⟨exMem_wf, [Mem.empty.footT], rfl, fun i R w h1 h2 => ?_, by decide⟩
  cases i with
  | zero => cases h1; cases h2; exact exA_at
  | succ i => cases h1

/-- C46 does not hold without the restriction: a tensor may be duplicated, but if the fifth request for memory fails the program
crashes. -/
theorem C46_crash_violated : ∃ (E : Env) (W : World) (m : Mem) (a : Act) (Q : Status → World → Prop), Live m W ∧ Allowed E W a false Q ∧
    a.run (W.map Prod.fst) E m = .ub .nullDeref := by
  refine ⟨failAt 9, [(Mem.empty.footT.h, exA)], exMem, .call (.duplicate Mem.empty.footT.h), _, live_one,
    .call (.duplicate List.mem_cons_self exA_elems (by decide) (by decide) (by decide)), ?_⟩
  have : duplicate Mem.empty.footT.h .indet (failAt 9) exMem = .ub .nullDeref := Res.ubIs_iff.1 (by decide +kernel)
  simp only [Act.run]
  rw [run_bind]
  show (duplicate Mem.empty.footT.h .indet (failAt 9) exMem).andThen _ = _
  rw [this]; rfl

/-- The element written in the example. -/
def exWr : List Byte := (encVal .i32 (.int 77)).map some

/-- A 2x3 tensor of zeros. -/
def exZeros : TV := tvOf .i32 [2, 3] (List.replicate 6 (.int 0))

/-- A program that starts with nothing: it makes a tensor, copies it, writes an element of the copy, asks for an impossible reshape of
the copy and destroys the original. -/
example : ∃ p1 p2 m1 m2 m3 m4 m5 T',
    Act.run [] (.call (.full Code.i32.dtype ⟨DEVICE_CPU, 0⟩ (dimsCells [2, 3]) 2 0)) okEnv Mem.empty = .ok (.success, [p1]) m1 ∧
    Act.run [p1] (.call (.duplicate p1)) okEnv m1 = .ok (.success, [p2, p1]) m2 ∧
    Act.run [p2, p1] (.setItem 0 4 exWr) okEnv m2 = .ok (.success, [p2, p1]) m3 ∧
    Act.run [p2, p1] (.call (.reshape p2 (dimsCells [4]) 1)) okEnv m3 = .ok (.dimensionsMismatch, [p2, p1]) m4 ∧
    Act.run [p2, p1] (.destroy 1) okEnv m4 = .ok (.success, [p2]) m5 ∧
    Written exZeros 4 exWr T' ∧ Live m5 [(p2, T')] := by
  have s0 := C46_start_partial (E := okEnv) 5
  obtain ⟨st, W, m1, e1, h, s1⟩ := C46_plenty okEnv_noFail okEnv_malloc s0 (.call (.full .i32 ⟨DEVICE_CPU, 0⟩ [2, 3] ⟨by decide, by decide⟩ (by decide) 0 (.int 0)
    ⟨0, rfl, rfl, -2147483648, 2147483647, rfl, by decide, by decide⟩))
  obtain ⟨rfl, p1, T, rfl, rfl⟩ := h
  have hz : Elems exZeros .i32 (List.replicate 6 (.int 0)) := tvOf_elems (by decide) rfl
  obtain ⟨st, W, m2, e2, h, s2⟩ := C46_plenty okEnv_noFail okEnv_malloc s1 (.call (.duplicate (T := exZeros) (h := p1) List.mem_cons_self hz (by decide) (by decide)
    (by decide)))
  obtain ⟨rfl, p2, T, rfl, rfl⟩ := h
  obtain ⟨st, W, m3, e3, h, s3⟩ := C46_plenty okEnv_noFail okEnv_malloc s2 (.setItem (i := 0) (j := 4) (v := exWr) rfl (by decide) (by decide))
  obtain ⟨rfl, T', hw, rfl⟩ := h
  obtain ⟨st, W, m4, e4, h, s4⟩ := C46_plenty okEnv_noFail okEnv_malloc s3 (.denied (.reshape (h := p2) (T := T') List.mem_cons_self [4]
    ⟨by rw [hw.1]; decide, by decide⟩ (by rw [hw.2.2.1]; decide)))
  obtain ⟨rfl, rfl⟩ := h
  obtain ⟨st, W, m5, e5, h, s5⟩ := C46_plenty okEnv_noFail okEnv_malloc s4 (.destroy (i := 1) (by simp))
  obtain ⟨rfl, rfl⟩ := h
  exact ⟨p1, p2, m1, m2, m3, m4, m5, T', e1, e2, e3, e4, e5, hw, s5⟩

end Aitisa
