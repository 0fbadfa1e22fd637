import Verif.Spec.Local
import Verif.Spec.Squeeze
import Verif.Spec.Slice
import Verif.Spec.Math
import Verif.Spec.Matmul
import Verif.Spec.Pooling
import Verif.Spec.Conv
import Verif.Spec.NN
import Verif.Spec.BatchNorm

/-!
# Specification vocabulary: calls that meet their preconditions

`Meets E D c b P`: with `D p T` for "the handle `p` denotes the tensor value `T`", the call `c` meets the preconditions of its
operator and the tensor it gives satisfies `P`; `b` says whether the operator checks all allocations it makes in this case.
`Denied E D c st`: the arguments of `c` are such that it must return the status `st` and no tensor.
Both are in terms of tensor values only.
-/

namespace Aitisa

/-- See the head of the file. -/
inductive Meets (E : Env) (D : Ptr → TV → Prop) : Call → Bool → (TV → Prop) → Prop
  | create (dt : DType) (dev : Device) (ds : List Nat) (hs : ShapeOK ds dt.size) :
    Meets E D (.create dt dev (dimsCells ds) ds.length 0) true (· = ⟨dt, dev, ds, List.replicate (prod ds * dt.size) none⟩)
  | full (c : Code) (dev : Device) (ds : List Nat) (hs : ShapeOK ds c.size) (hi : prod ds ≤ 2147483647) (value : BitVec 64) (v : Val)
      (hv : Converts E.fp c (.f64 value) v) :
    Meets E D (.full c.dtype dev (dimsCells ds) ds.length value) true (· = ⟨c.dtype, dev, ds, encAll c (List.replicate (prod ds) v)⟩)
  | reshape {h : Ptr} {T : TV} (hd : D h T) (ds : List Nat) (hs : ShapeOK ds T.dtype.size) (hp : prod ds = prod T.dims) :
    Meets E D (.reshape h (dimsCells ds) ds.length) true (· = ⟨T.dtype, T.device, ds, T.bytes⟩)
  | squeeze {h : Ptr} {T : TV} (hd : D h T) (hp : ∀ d ∈ T.dims, 0 < d) {ax : List Nat} (hnd : ax.Nodup) (hr : ∀ a ∈ ax, a < T.dims.length) :
    Meets E D (.squeeze h (dimsCells ax) ax.length) true
      fun T' => ∃ ds', Without (fun i => ax = [] ∨ i ∈ ax) 0 T.dims ds' ∧ T' = { T with dims := ds' }
  | slice {h : Ptr} {T : TV} {c : Code} {xs : List Val} (hd : D h T) (he : Elems T c xs) (h0 : T.dims ≠ []) {ax : List Axis}
      (hf : SliceFits T.dims ax) (ha : AxFit ax) (hi : prod (sliceDims ax) ≤ 2147483647) :
    Meets E D (.slice h (bgs ax) (szs ax) (sts ax)) false
      fun T' => ∃ ys, T' = ⟨T.dtype, T.device, sliceDims ax, encAll c ys⟩ ∧ Elems T' c ys ∧
        ∀ oc, InRange (sliceDims ax) oc → ∃ v, ys[lin (sliceDims ax) oc]? = some v ∧ xs[lin T.dims (source ax oc)]? = some v
  | duplicate {h : Ptr} {T : TV} {c : Code} {xs : List Val} (hd : D h T) (he : Elems T c xs) (h0 : T.dims ≠ []) (hp : ∀ d ∈ T.dims, 0 < d)
      (hi : prod T.dims ≤ 2147483647) : Meets E D (.duplicate h) false (· = T)
  | binary {h1 h2 : Ptr} {T1 T2 : TV} {c : Code} {op : BinOp} {xs ys zs : List Val} (d1 : D h1 T1) (e1 : Elems T1 c xs) (d2 : D h2 T2)
      (e2 : Elems T2 c ys) (c1 : T1.device.type = 0) (c2 : T2.device.type = 0) (hd : T2.dims = T1.dims) (hi : prod T1.dims ≤ 2147483647)
      (hzl : zs.length = xs.length)
      (hz : ∀ i (_ : i < xs.length) (_ : i < ys.length) (_ : i < zs.length), OpResult E.fp c op xs[i] ys[i] zs[i]) :
    Meets E D (.binary op h1 h2) false (· = ⟨c.dtype, T1.device, T1.dims, encAll c zs⟩)
  | sqrt {h : Ptr} {T : TV} {c : Code} {xs : List Val} (hd : D h T) (he : Elems T c xs) (hpos : ∀ x ∈ xs, ¬ Negative E.fp x)
      (hr : ∀ x ∈ xs, ∃ y, RootOf E.fp c x y) :
    Meets E D (.sqrt h) true fun T' => ∃ ys, T' = ⟨c.dtype, T.device, T.dims, encAll c ys⟩ ∧ Pointwise (RootOf E.fp c) xs ys
  | relu {h : Ptr} {T : TV} {c : Code} {xs : List Val} (hd : D h T) (he : Elems T c xs) :
    Meets E D (.relu h) true fun T' => ∃ ys, T' = ⟨c.dtype, T.device, T.dims, encAll c ys⟩ ∧ Pointwise (ClampedAtZero E.fp) xs ys
  | sigmoid {h : Ptr} {T : TV} {c : Code} {xs : List Val} (hc : c = .f32 ∨ c = .f64) (hd : D h T) (he : Elems T c xs) :
    Meets E D (.sigmoid h) true fun T' => ∃ ys, T' = ⟨c.dtype, T.device, T.dims, encAll c ys⟩ ∧ Pointwise (SigmoidOf E.fp) xs ys
  | tanh {h : Ptr} {T : TV} {c : Code} {xs : List Val} (hc : c = .f32 ∨ c = .f64) (hd : D h T) (he : Elems T c xs) :
    Meets E D (.tanh h) true fun T' => ∃ ys, T' = ⟨c.dtype, T.device, T.dims, encAll c ys⟩ ∧ Pointwise (TanhOf E.fp) xs ys
  | softmaxAxis {h : Ptr} {T : TV} {c : Code} {xs es ys : List Val} {a : Nat} (hd : D h T) (he : Elems T c xs) (ha : a < T.dims.length)
      (hsz : prod T.dims < 4611686018427387904) (hes : Pointwise (ExpOf E.fp c) xs es) (hy : ys.length = xs.length)
      (hys : ∀ cs, InRange T.dims cs → ShareOf E.fp c (lineAt T.dims a es cs) (elemAt T.dims es cs) (elemAt T.dims ys cs)) :
    Meets E D (.softmax h a) true (· = ⟨T.dtype, T.device, T.dims, encAll c ys⟩)
  | softmaxAll {h : Ptr} {T : TV} {c : Code} {xs es ys : List Val} (hd : D h T) (he : Elems T c xs) (hes : Pointwise (ExpOf E.fp c) xs es)
      (hys : Pointwise (ShareOf E.fp c es) es ys) : Meets E D (.softmax h (-1)) true (· = ⟨T.dtype, T.device, T.dims, encAll c ys⟩)
  | dropout {h : Ptr} {T : TV} {c : Code} {xs : List Val} {rate : BitVec 64} {n : Int} (hd : D h T) (he : Elems T c xs) (h0 : T.dims ≠ [])
      (hp : ∀ d ∈ T.dims, 0 < d) (hi : prod T.dims ≤ 2147483647) (hr : RateOK E.fp rate) (hn : Percent E.fp rate n) :
    Meets E D (.dropout h rate) false fun T' => ∃ ys k z, T' = ⟨c.dtype, T.device, T.dims, encAll c ys⟩ ∧
      Converts E.fp c (.int 0) z ∧ Dropped (fun i => E.rand (k + i)) n z xs ys
  | matVecVec {h1 h2 : Ptr} {T1 T2 : TV} {c : Code} {xs ys : List Val} {z w : Val} {nK : Nat} (d1 : D h1 T1) (e1 : Elems T1 c xs)
      (d2 : D h2 T2) (e2 : Elems T2 c ys) (c1 : T1.device.type = DEVICE_CPU) (c2 : T2.device.type = DEVICE_CPU) (hz : ZeroOf E.fp c z)
      (s1 : T1.dims = [nK]) (s2 : T2.dims = [nK]) (hK : nK ≤ 2147483647)
      (hdot : DotTo E.fp c z ((List.range nK).map fun q => (elemAt T1.dims xs [q], elemAt T2.dims ys [q])) w) :
    Meets E D (.matmul h1 h2) true (· = ⟨c.dtype, T1.device, [1], encAll c [w]⟩)
  | matMatVec {h1 h2 : Ptr} {T1 T2 : TV} {c : Code} {xs ys zs : List Val} {z : Val} {nM nK : Nat} (d1 : D h1 T1) (e1 : Elems T1 c xs)
      (d2 : D h2 T2) (e2 : Elems T2 c ys) (c1 : T1.device.type = DEVICE_CPU) (c2 : T2.device.type = DEVICE_CPU) (hz : ZeroOf E.fp c z)
      (s1 : T1.dims = [nM, nK]) (s2 : T2.dims = [nK]) (hM : nM ≤ 2147483647) (hK : nK ≤ 2147483647) (hzl : zs.length = nM)
      (hdot : ∀ i, i < nM → DotTo E.fp c z ((List.range nK).map fun q => (elemAt T1.dims xs [i, q], elemAt T2.dims ys [q]))
        (elemAt [nM] zs [i])) :
    Meets E D (.matmul h1 h2) true (· = ⟨c.dtype, T1.device, [nM], encAll c zs⟩)
  | matVecMat {h1 h2 : Ptr} {T1 T2 : TV} {c : Code} {xs ys zs : List Val} {z : Val} {nK nN : Nat} (d1 : D h1 T1) (e1 : Elems T1 c xs)
      (d2 : D h2 T2) (e2 : Elems T2 c ys) (c1 : T1.device.type = DEVICE_CPU) (c2 : T2.device.type = DEVICE_CPU) (hz : ZeroOf E.fp c z)
      (s1 : T1.dims = [nK]) (s2 : T2.dims = [nK, nN]) (hK : nK ≤ 2147483647) (hN : nN ≤ 2147483647) (hzl : zs.length = nN)
      (hdot : ∀ j, j < nN → DotTo E.fp c z ((List.range nK).map fun q => (elemAt T1.dims xs [q], elemAt T2.dims ys [q, j]))
        (elemAt [nN] zs [j])) :
    Meets E D (.matmul h1 h2) true (· = ⟨c.dtype, T1.device, [nN], encAll c zs⟩)
  | matMatMat {h1 h2 : Ptr} {T1 T2 : TV} {c : Code} {xs ys zs : List Val} {z : Val} {nM nK nN : Nat} (d1 : D h1 T1) (e1 : Elems T1 c xs)
      (d2 : D h2 T2) (e2 : Elems T2 c ys) (c1 : T1.device.type = DEVICE_CPU) (c2 : T2.device.type = DEVICE_CPU) (hz : ZeroOf E.fp c z)
      (s1 : T1.dims = [nM, nK]) (s2 : T2.dims = [nK, nN]) (hs : ShapeOK [nM, nN] c.size) (hM : nM ≤ 2147483647) (hK : nK ≤ 2147483647)
      (hN : nN ≤ 2147483647) (hi : nM * nN ≤ 2147483647) (hzl : zs.length = nM * nN)
      (hdot : ∀ i j, i < nM → j < nN → DotTo E.fp c z ((List.range nK).map fun q => (elemAt T1.dims xs [i, q], elemAt T2.dims ys [q, j]))
        (elemAt [nM, nN] zs [i, j])) :
    Meets E D (.matmul h1 h2) true (· = ⟨c.dtype, T1.device, [nM, nN], encAll c zs⟩)
  | matTenVec {h1 h2 : Ptr} {T1 T2 : TV} {c : Code} {xs ys zs : List Val} {z : Val} {nM nK : Nat} {bs : List Nat} (d1 : D h1 T1)
      (e1 : Elems T1 c xs) (d2 : D h2 T2) (e2 : Elems T2 c ys) (c1 : T1.device.type = DEVICE_CPU) (c2 : T2.device.type = DEVICE_CPU)
      (hz : ZeroOf E.fp c z) (s1 : T1.dims = bs ++ [nM, nK]) (hb : bs ≠ []) (s2 : T2.dims = [nK]) (hs : ShapeOK (bs ++ [nM]) c.size)
      (hM : nM ≤ 2147483647) (hK : nK ≤ 2147483647) (hnb : prod bs ≤ 2147483647) (hi : prod (bs ++ [nM]) ≤ 2147483647)
      (hzl : zs.length = prod (bs ++ [nM]))
      (hdot : ∀ cs i, InRange bs cs → i < nM → DotTo E.fp c z ((List.range nK).map fun q =>
        (elemAt T1.dims xs (cs ++ [i, q]), elemAt T2.dims ys [q])) (elemAt (bs ++ [nM]) zs (cs ++ [i]))) :
    Meets E D (.matmul h1 h2) false (· = ⟨c.dtype, T1.device, bs ++ [nM], encAll c zs⟩)
  | matVecTen {h1 h2 : Ptr} {T1 T2 : TV} {c : Code} {xs ys zs : List Val} {z : Val} {nK nN : Nat} {bs : List Nat} (d1 : D h1 T1)
      (e1 : Elems T1 c xs) (d2 : D h2 T2) (e2 : Elems T2 c ys) (c1 : T1.device.type = DEVICE_CPU) (c2 : T2.device.type = DEVICE_CPU)
      (hz : ZeroOf E.fp c z) (s1 : T1.dims = [nK]) (s2 : T2.dims = bs ++ [nK, nN]) (hb : bs ≠ []) (hs : ShapeOK (bs ++ [nN]) c.size)
      (hK : nK ≤ 2147483647) (hN : nN ≤ 2147483647) (hnb : prod bs ≤ 2147483647) (hi : prod (bs ++ [nN]) ≤ 2147483647)
      (hzl : zs.length = prod (bs ++ [nN]))
      (hdot : ∀ cs j, InRange bs cs → j < nN → DotTo E.fp c z ((List.range nK).map fun q =>
        (elemAt T1.dims xs [q], elemAt T2.dims ys (cs ++ [q, j]))) (elemAt (bs ++ [nN]) zs (cs ++ [j]))) :
    Meets E D (.matmul h1 h2) false (· = ⟨c.dtype, T1.device, bs ++ [nN], encAll c zs⟩)
  | matTenTen {h1 h2 : Ptr} {T1 T2 : TV} {c : Code} {xs ys zs : List Val} {z : Val} {nM nK nN : Nat} {b1 b2 bd : List Nat} (d1 : D h1 T1)
      (e1 : Elems T1 c xs) (d2 : D h2 T2) (e2 : Elems T2 c ys) (c1 : T1.device.type = DEVICE_CPU) (c2 : T2.device.type = DEVICE_CPU)
      (hz : ZeroOf E.fp c z) (s1 : T1.dims = b1 ++ [nM, nK]) (s2 : T2.dims = b2 ++ [nK, nN]) (hb : b1 ≠ [] ∨ b2 ≠ [])
      (hp1 : ∀ d ∈ b1, 0 < d) (hp2 : ∀ d ∈ b2, 0 < d) (hbc : Broadcasts b1 b2 bd) (hs : ShapeOK (bd ++ [nM, nN]) c.size)
      (hM : nM ≤ 2147483647) (hK : nK ≤ 2147483647) (hN : nN ≤ 2147483647) (hnb : prod bd ≤ 2147483647)
      (hi : prod (bd ++ [nM, nN]) ≤ 2147483647) (hzl : zs.length = prod (bd ++ [nM, nN]))
      (hdot : ∀ cs i j, InRange bd cs → i < nM → j < nN → DotTo E.fp c z ((List.range nK).map fun q =>
        (elemAt T1.dims xs (under b1 cs ++ [i, q]), elemAt T2.dims ys (under b2 cs ++ [q, j]))) (elemAt (bd ++ [nM, nN]) zs (cs ++ [i, j]))) :
    Meets E D (.matmul h1 h2) false (· = ⟨c.dtype, T1.device, bd ++ [nM, nN], encAll c zs⟩)
  | dotVecVec {h1 h2 : Ptr} {T1 T2 : TV} {c : Code} {xs ys : List Val} {z0 z w : Val} {nK : Nat} (d1 : D h1 T1) (e1 : Elems T1 c xs)
      (d2 : D h2 T2) (e2 : Elems T2 c ys) (c1 : T1.device.type = DEVICE_CPU) (c2 : T2.device.type = DEVICE_CPU) (hz0 : ZeroOf E.fp c z0)
      (hz : Converts E.fp c (.int 0) z) (s1 : T1.dims = [nK]) (s2 : T2.dims = [nK]) (hK : nK ≤ 2147483647)
      (hdot : DotTo E.fp c z ((List.range nK).map fun q => (elemAt T1.dims xs [q], elemAt T2.dims ys [q])) w) :
    Meets E D (.dot h1 h2) true (· = ⟨c.dtype, T1.device, [1], encAll c [w]⟩)
  | dotMatMat {h1 h2 : Ptr} {T1 T2 : TV} {b : Bool} {P : TV → Prop} (d1 : D h1 T1) (d2 : D h2 T2) (c1 : T1.device.type = DEVICE_CPU)
      (c2 : T2.device.type = DEVICE_CPU) (hc : T1.dtype = T2.dtype) (s1 : T1.dims.length = 2) (s2 : T2.dims.length = 2)
      (hm : Meets E D (.matmul h1 h2) b P) : Meets E D (.dot h1 h2) b P
  | dotScalarLeft {h1 h2 : Ptr} {T1 T2 : TV} {c : Code} {xs ys zs : List Val} {s v : Val} (d1 : D h1 T1) (e1 : Elems T1 c xs)
      (d2 : D h2 T2) (e2 : Elems T2 c ys) (c1 : T1.device.type = DEVICE_CPU) (c2 : T2.device.type = DEVICE_CPU) (hs : xs = [s])
      (s1 : T1.dims = []) (hv : ThroughDouble E.fp c s v) (hi : prod T2.dims ≤ 2147483647) (hzl : zs.length = ys.length)
      (hz : ∀ i (_ : i < ys.length) (_ : i < zs.length), OpResult E.fp c .mul v ys[i] zs[i]) :
    Meets E D (.dot h1 h2) false (· = ⟨c.dtype, T1.device, T2.dims, encAll c zs⟩)
  | dotScalarRight {h1 h2 : Ptr} {T1 T2 : TV} {c : Code} {xs ys zs : List Val} {s v : Val} (d1 : D h1 T1) (e1 : Elems T1 c xs)
      (d2 : D h2 T2) (e2 : Elems T2 c ys) (c1 : T1.device.type = DEVICE_CPU) (c2 : T2.device.type = DEVICE_CPU) (hs : ys = [s])
      (s1 : T1.dims ≠ []) (s2 : T2.dims = []) (hv : ThroughDouble E.fp c s v) (hi : prod T1.dims ≤ 2147483647) (hzl : zs.length = xs.length)
      (hz : ∀ i (_ : i < xs.length) (_ : i < zs.length), OpResult E.fp c .mul v xs[i] zs[i]) :
    Meets E D (.dot h1 h2) false (· = ⟨c.dtype, T1.device, T1.dims, encAll c zs⟩)
  | dotTenVec {h1 h2 : Ptr} {T1 T2 : TV} {c : Code} {xs ys zs : List Val} {z0 z : Val} {nK : Nat} {bs : List Nat} (d1 : D h1 T1)
      (e1 : Elems T1 c xs) (d2 : D h2 T2) (e2 : Elems T2 c ys) (c1 : T1.device.type = DEVICE_CPU) (c2 : T2.device.type = DEVICE_CPU)
      (hz0 : ZeroOf E.fp c z0) (hz : Converts E.fp c (.int 0) z) (s1 : T1.dims = bs ++ [nK]) (hb : bs ≠ []) (s2 : T2.dims = [nK])
      (hK : nK ≤ 2147483647) (hn : prod bs * c.size ≤ 2147483647) (h0 : 0 < prod bs → 0 < nK) (hzl : zs.length = prod bs)
      (hdot : ∀ cs, InRange bs cs → DotTo E.fp c z ((List.range nK).map fun q =>
        (elemAt T1.dims xs (cs ++ [q]), elemAt T2.dims ys [q])) (elemAt bs zs cs)) :
    Meets E D (.dot h1 h2) false (· = ⟨c.dtype, T1.device, bs, encAll c zs⟩)
  | dotTenTen {h1 h2 : Ptr} {T1 T2 : TV} {c : Code} {xs ys zs : List Val} {z0 z : Val} {nK l : Nat} {b1 b2 : List Nat} (d1 : D h1 T1)
      (e1 : Elems T1 c xs) (d2 : D h2 T2) (e2 : Elems T2 c ys) (c1 : T1.device.type = DEVICE_CPU) (c2 : T2.device.type = DEVICE_CPU)
      (hz0 : ZeroOf E.fp c z0) (hz : Converts E.fp c (.int 0) z) (s1 : T1.dims = b1 ++ [nK]) (s2 : T2.dims = b2 ++ [nK, l])
      (hb1 : 2 ≤ b1.length) (hb2 : b2 ≠ []) (h0 : 0 < nK) (hK : nK ≤ 2147483647) (hn1 : prod b1 ≤ 2147483647)
      (hn2 : prod b2 * l ≤ 2147483647) (hs : ShapeOK (b1 ++ b2 ++ [l]) c.size) (hzl : zs.length = prod (b1 ++ b2 ++ [l]))
      (hdot : ∀ cs ds j, InRange b1 cs → InRange b2 ds → j < l → DotTo E.fp c z ((List.range nK).map fun q =>
        (elemAt T1.dims xs (cs ++ [q]), elemAt T2.dims ys (ds ++ [q, j]))) (elemAt (b1 ++ b2 ++ [l]) zs (cs ++ ds ++ [j]))) :
    Meets E D (.dot h1 h2) false (· = ⟨c.dtype, T1.device, b1 ++ b2 ++ [l], encAll c zs⟩)
  | poolAvg {h : Ptr} {T : TV} {c : Code} {xs zs : List Val} {B C fuel : Nat} {ws : List Win} (hd : D h T) (he : Elems T c xs)
      (hs : T.dims = B :: C :: ws.map Win.x) (hw : 1 ≤ ws.length) (hw' : ws.length ≤ 3) (hf : ∀ w ∈ ws, w.Fits ∧ w.Small)
      (hso : ShapeOK (B :: C :: ws.map Win.out) c.size) (hi : prod (ws.map Win.out) ≤ 2147483647)
      (hK : prod (ws.map Win.k) ≤ 9223372036854775807) (f1 : prod (ws.map Win.k) ≤ fuel) (f2 : prod (ws.map Win.out) ≤ fuel)
      (hl : zs.length = prod (B :: C :: ws.map Win.out))
      (hz : ∀ b ch os, InRange (B :: C :: ws.map Win.out) (b :: ch :: os) →
        AvgOf E.fp c (prod (ws.map Win.k)) (winElems T.dims xs ws b ch os) (elemAt (B :: C :: ws.map Win.out) zs (b :: ch :: os))) :
    Meets E D (.pooling fuel h "avg" (dimsCells (ws.map Win.k)) (dimsCells (ws.map Win.s)) (dimsCells (ws.map Win.p)) (dimsCells (ws.map Win.d)))
      false (· = ⟨c.dtype, T.device, B :: C :: ws.map Win.out, encAll c zs⟩)
  | poolMax {h : Ptr} {T : TV} {c : Code} {xs zs : List Val} {B C fuel : Nat} {ws : List Win} (hd : D h T) (he : Elems T c xs)
      (hs : T.dims = B :: C :: ws.map Win.x) (hw : 1 ≤ ws.length) (hw' : ws.length ≤ 3) (hf : ∀ w ∈ ws, w.Fits ∧ w.Small)
      (hso : ShapeOK (B :: C :: ws.map Win.out) c.size) (hi : prod (ws.map Win.out) ≤ 2147483647)
      (hK : prod (ws.map Win.k) ≤ 9223372036854775807) (f1 : prod (ws.map Win.k) ≤ fuel) (f2 : prod (ws.map Win.out) ≤ fuel)
      (hl : zs.length = prod (B :: C :: ws.map Win.out))
      (hz : ∀ b ch os, InRange (B :: C :: ws.map Win.out) (b :: ch :: os) →
        ScanOf E.fp c (winElems T.dims xs ws b ch os) (elemAt (B :: C :: ws.map Win.out) zs (b :: ch :: os))) :
    Meets E D (.pooling fuel h "max" (dimsCells (ws.map Win.k)) (dimsCells (ws.map Win.s)) (dimsCells (ws.map Win.p)) (dimsCells (ws.map Win.d)))
      false (· = ⟨c.dtype, T.device, B :: C :: ws.map Win.out, encAll c zs⟩)
  | conv2d {h f : Ptr} {T1 T2 : TV} {xs ys : List Val} {B C O : Nat} {ws : List Win} (d1 : D h T1) (d2 : D f T2) (e1 : Elems T1 .f32 xs)
      (e2 : Elems T2 .f32 ys) (hr : ws.length = 2) (s1 : T1.dims = B :: C :: ws.map Win.x) (s2 : T2.dims = O :: C :: ws.map Win.k)
      (hf : ∀ w ∈ ws, w.Fits ∧ w.Wide) (hso : ShapeOK (B :: O :: ws.map Win.out) 4) (hC : 0 < C) (groups : Int) :
    Meets E D (.conv2d (some .success) (some .success) h f (dimsCells (ws.map Win.s)) (dimsCells (ws.map Win.p)) (dimsCells (ws.map Win.d)) groups)
      false fun T' => ∃ zs : List Val, T' = ⟨Code.f32.dtype, T1.device, B :: O :: ws.map Win.out, encAll .f32 zs⟩ ∧
        ∀ b oc os, InRange (B :: O :: ws.map Win.out) (b :: oc :: os) →
          ConvOf E.fp (convTerms T1.dims T2.dims xs ys ws C b oc os) (elemAt (B :: O :: ws.map Win.out) zs (b :: oc :: os))
  | conv3d {h f : Ptr} {T1 T2 : TV} {xs ys : List Val} {B C O : Nat} {ws : List Win} (d1 : D h T1) (d2 : D f T2) (e1 : Elems T1 .f32 xs)
      (e2 : Elems T2 .f32 ys) (hr : ws.length = 3) (s1 : T1.dims = B :: C :: ws.map Win.x) (s2 : T2.dims = O :: C :: ws.map Win.k)
      (hf : ∀ w ∈ ws, w.Fits ∧ w.Wide) (hso : ShapeOK (B :: O :: ws.map Win.out) 4) (hC : 0 < C) (groups : Int) :
    Meets E D (.conv3d (some .success) (some .success) h f (dimsCells (ws.map Win.s)) (dimsCells (ws.map Win.p)) (dimsCells (ws.map Win.d)) groups)
      false fun T' => ∃ zs : List Val, T' = ⟨Code.f32.dtype, T1.device, B :: O :: ws.map Win.out, encAll .f32 zs⟩ ∧
        ∀ b oc os, InRange (B :: O :: ws.map Win.out) (b :: oc :: os) →
          ConvOf E.fp (convTerms T1.dims T2.dims xs ys ws C b oc os) (elemAt (B :: O :: ws.map Win.out) zs (b :: oc :: os))
  | batchNorm {h s b' u v : Ptr} {T Sc Bi Me Va : TV} {c : Code} {xs ss bs ms vs : List Val} (hd : D h T) (ds : D s Sc) (db : D b' Bi)
      (dm : D u Me) (dv : D v Va) (hx : Elems T c xs) (es : Elems Sc c ss) (eb : Elems Bi c bs) (em : Elems Me c ms) (ev : Elems Va c vs)
      (g : T.device.type = 0) (gs : Sc.device.type = 0) (gb : Bi.device.type = 0) (gm : Me.device.type = 0) (gv : Va.device.type = 0)
      (axis : Nat) (eps : BitVec 64) (hreq : ∀ p ∈ bnRequires E.fp T axis Sc Bi Me Va eps, p.1) (hpos : ∀ x ∈ T.dims.drop 1, 0 < x)
      (hsm : BnSmall T axis c)
      (hden : ∀ ch, ch < T.dims.getD axis 0 → ∃ e t r, Converts E.fp c (.f64 eps) e ∧ OpResult E.fp c .add (vs.getD ch (.int 0)) e t ∧
        ¬ Negative E.fp t ∧ RootOf E.fp c t r)
      (hn : ∀ cs, InRange T.dims cs → ∃ r, NormTo E.fp c eps (ss.getD (cs.getD axis 0) (.int 0)) (bs.getD (cs.getD axis 0) (.int 0))
        (ms.getD (cs.getD axis 0) (.int 0)) (vs.getD (cs.getD axis 0) (.int 0)) (elemAt T.dims xs cs) r) :
    Meets E D (.batchNorm h axis s b' u v eps) false fun T' => ∃ zs : List Val, T' = ⟨c.dtype, T.device, T.dims, encAll c zs⟩ ∧
      ∀ cs, InRange T.dims cs → NormTo E.fp c eps (ss.getD (cs.getD axis 0) (.int 0)) (bs.getD (cs.getD axis 0) (.int 0))
        (ms.getD (cs.getD axis 0) (.int 0)) (vs.getD (cs.getD axis 0) (.int 0)) (elemAt T.dims xs cs) (elemAt T.dims zs cs)

/-- See the head of the file. -/
inductive Denied (E : Env) (D : Ptr → TV → Prop) : Call → Status → Prop
  | reshape {h : Ptr} {T : TV} (hd : D h T) (ds : List Nat) (hs : ShapeOK ds T.dtype.size) (hp : prod ds ≠ prod T.dims) :
    Denied E D (.reshape h (dimsCells ds) ds.length) .dimensionsMismatch
  | squeezeCount {h : Ptr} {T : TV} (hd : D h T) (axis : Arr) {n : Int} (hn : n < 0) : Denied E D (.squeeze h axis n) .invalidArgument
  | squeezeAxis {h : Ptr} {T : TV} (hd : D h T) {ax : List Int} (hn : ∃ a ∈ ax, a < 0) :
    Denied E D (.squeeze h (Arr.of ax) ax.length) .invalidArgument
  | slice {h : Ptr} {T : TV} (hd : D h T) {bg sz st : List Int} (hb : bg.length = T.dims.length) (hz : sz.length = T.dims.length)
      (ht : st.length = T.dims.length) (hbad : ∃ i, i < T.dims.length ∧ ¬ GoodAt T.dims bg sz st i)
      (hsum : ∀ i, i < T.dims.length → SumFits bg sz i) : Denied E D (.slice h (Arr.of bg) (Arr.of sz) (Arr.of st)) .invalidArgument
  | binaryDevice {h1 h2 : Ptr} {T1 T2 : TV} {op : BinOp} (d1 : D h1 T1) (d2 : D h2 T2) (hd : T1.device.type ≠ 0 ∨ T2.device.type ≠ 0) :
    Denied E D (.binary op h1 h2) .notSupported
  | binaryType {h1 h2 : Ptr} {T1 T2 : TV} {op : BinOp} (d1 : D h1 T1) (d2 : D h2 T2) (c1 : T1.device.type = 0) (c2 : T2.device.type = 0)
      (ht : T1.dtype.code ≠ T2.dtype.code) : Denied E D (.binary op h1 h2) .typeMismatch
  | binaryDims {h1 h2 : Ptr} {T1 T2 : TV} {op : BinOp} (d1 : D h1 T1) (d2 : D h2 T2) (c1 : T1.device.type = 0) (c2 : T2.device.type = 0)
      (ht : T1.dtype.code = T2.dtype.code) (hd : T1.dims ≠ T2.dims) : Denied E D (.binary op h1 h2) .invalidArgument
  | sqrt {h : Ptr} {T : TV} {c : Code} {xs : List Val} (hd : D h T) (he : Elems T c xs) (hneg : ∃ x ∈ xs, Negative E.fp x)
      (hr : ∀ x ∈ xs, ¬ Negative E.fp x → ∃ y, RootOf E.fp c x y) : Denied E D (.sqrt h) .mathError
  | matDevice {h1 h2 : Ptr} {T1 T2 : TV} (d1 : D h1 T1) (d2 : D h2 T2) (hd : T1.device.type ≠ DEVICE_CPU ∨ T2.device.type ≠ DEVICE_CPU) :
    Denied E D (.matmul h1 h2) .notSupported
  | matRank {h1 h2 : Ptr} {T1 T2 : TV} (d1 : D h1 T1) (d2 : D h2 T2) (c1 : T1.device.type = DEVICE_CPU) (c2 : T2.device.type = DEVICE_CPU)
      (hd : T1.dims = [] ∨ T2.dims = []) : Denied E D (.matmul h1 h2) .invalidArgument
  | matInner {h1 h2 : Ptr} {T1 T2 : TV} (d1 : D h1 T1) (d2 : D h2 T2) (c1 : T1.device.type = DEVICE_CPU) (c2 : T2.device.type = DEVICE_CPU)
      {k1 k2 : Nat} (i1 : T1.dims.getLast? = some k1) (i2 : innerRight T2.dims = some k2) (hne : k1 ≠ k2) :
    Denied E D (.matmul h1 h2) .dimensionsMismatch
  | dotUnsupported {h1 h2 : Ptr} {T1 T2 : TV} (d1 : D h1 T1) (d2 : D h2 T2)
      (hd : T1.device.type ≠ DEVICE_CPU ∨ T2.device.type ≠ DEVICE_CPU ∨ T1.dtype.code ≠ T2.dtype.code) : Denied E D (.dot h1 h2) .notSupported
  | dotRanks {h1 h2 : Ptr} {T1 T2 : TV} (d1 : D h1 T1) (d2 : D h2 T2) (c1 : T1.device.type = DEVICE_CPU) (c2 : T2.device.type = DEVICE_CPU)
      (ht : T1.dtype.code = T2.dtype.code) (hr1 : T1.dims.length ≠ 0) (hr2 : 2 ≤ T2.dims.length)
      (hr : T1.dims.length = 1 ∨ (T1.dims.length = 2 ∧ 2 < T2.dims.length) ∨ (2 < T1.dims.length ∧ T2.dims.length = 2)) :
    Denied E D (.dot h1 h2) .invalidArgument
  | dotVectors {h1 h2 : Ptr} {T1 T2 : TV} (d1 : D h1 T1) (d2 : D h2 T2) (c1 : T1.device.type = DEVICE_CPU) (c2 : T2.device.type = DEVICE_CPU)
      (ht : T1.dtype.code = T2.dtype.code) {k1 k2 : Nat} (s1 : T1.dims = [k1]) (s2 : T2.dims = [k2]) (hk : k1 ≠ k2) :
    Denied E D (.dot h1 h2) .dimensionsMismatch
  | dotTenVec {h1 h2 : Ptr} {T1 T2 : TV} {bs : List Nat} (d1 : D h1 T1) (d2 : D h2 T2) (c1 : T1.device.type = DEVICE_CPU)
      (c2 : T2.device.type = DEVICE_CPU) (ht : T1.dtype.code = T2.dtype.code) {k1 k2 : Nat} (s1 : T1.dims = bs ++ [k1]) (hb : bs ≠ [])
      (s2 : T2.dims = [k2]) (hk : k1 ≠ k2) : Denied E D (.dot h1 h2) .invalidArgument
  | dotTenTen {h1 h2 : Ptr} {T1 T2 : TV} {b1 b2 : List Nat} {l : Nat} (d1 : D h1 T1) (d2 : D h2 T2) (c1 : T1.device.type = DEVICE_CPU)
      (c2 : T2.device.type = DEVICE_CPU) (ht : T1.dtype.code = T2.dtype.code) {k1 k2 : Nat} (s1 : T1.dims = b1 ++ [k1])
      (s2 : T2.dims = b2 ++ [k2, l]) (hb1 : 2 ≤ b1.length) (hb2 : b2 ≠ []) (hk : k1 ≠ k2) : Denied E D (.dot h1 h2) .invalidArgument
  | conv2d {h f : Ptr} {T : TV} (hd : D h T) (hr : T.dims.length ≠ 4) (j j' : Fall) (s p d : Arr) (groups : Int) :
    Denied E D (.conv2d j j' h f s p d groups) .dimensionsMismatch
  | conv3d {h f : Ptr} {T : TV} (hd : D h T) (hr : T.dims.length ≠ 5) (j j' : Fall) (s p d : Arr) (groups : Int) :
    Denied E D (.conv3d j j' h f s p d groups) .dimensionsMismatch
  | conv2dType {h f : Ptr} {T : TV} (hd : D h T) (hr : T.dims.length = 4) (hc : T.dtype.code ≠ Code.f32.toNat) (j j' : Fall) (s p d : Arr)
      (groups : Int) : Denied E D (.conv2d j j' h f s p d groups) .notSupported
  | conv3dType {h f : Ptr} {T : TV} (hd : D h T) (hr : T.dims.length = 5) (hc : T.dtype.code ≠ Code.f32.toNat) (j j' : Fall) (s p d : Arr)
      (groups : Int) : Denied E D (.conv3d j j' h f s p d groups) .notSupported
  | poolRank {h : Ptr} {T : TV} (hd : D h T) (hr : T.dims.length < 3 ∨ 5 < T.dims.length) (fuel : Nat) (mode : String) (k s p d : Arr) :
    Denied E D (.pooling fuel h mode k s p d) .dimensionsMismatch
  | poolLarge {h : Ptr} {T : TV} {B C fuel : Nat} {ws : List Win} (hd : D h T) (hs : T.dims = B :: C :: ws.map Win.x) (hw : 1 ≤ ws.length)
      (hw' : ws.length ≤ 3)
      (hsm : ∀ w ∈ ws, 1 ≤ w.k ∧ w.x + 2 * w.p ≤ 2147483647 ∧ w.d * (w.k - 1) + 1 ≤ 2147483647 ∧ w.k ≤ 2147483647)
      (hbig : ∃ w ∈ ws, w.x + 2 * w.p < w.d * (w.k - 1) + 1) (mode : String) (s : Arr) :
    Denied E D (.pooling fuel h mode (dimsCells (ws.map Win.k)) s (dimsCells (ws.map Win.p)) (dimsCells (ws.map Win.d))) .invalidArgument
  | sigmoid {h : Ptr} {T : TV} (hd : D h T) (hc : T.dtype.code ≠ 8 ∧ T.dtype.code ≠ 9) : Denied E D (.sigmoid h) .notSupported
  | tanh {h : Ptr} {T : TV} (hd : D h T) (hc : T.dtype.code ≠ 8 ∧ T.dtype.code ≠ 9) : Denied E D (.tanh h) .notSupported
  | softmax {h : Ptr} {T : TV} (hd : D h T) {axis : Int} (ha : axis < -1 ∨ (T.dims.length : Int) ≤ axis) :
    Denied E D (.softmax h axis) .notSupported
  | dropout {h : Ptr} {T : TV} (hd : D h T) {rate : BitVec 64} (hr : ¬ RateOK E.fp rate) : Denied E D (.dropout h rate) .invalidArgument
  | batchNorm {h s b u v : Ptr} {T Sc Bi Me Va : TV} (hd : D h T) (ds : D s Sc) (db : D b Bi) (dm : D u Me) (dv : D v Va) (axis : Int)
      (eps : BitVec 64) {st : Status} (hf : FirstFails (bnRequires E.fp T axis Sc Bi Me Va eps) st) (hst : st ≠ .success) :
    Denied E D (.batchNorm h axis s b u v eps) st

/-- The tensors a program holds: handles and what they denote. -/
abbrev World := List (Ptr × TV)

/-- `T'` is `T` with the bytes of element `i` replaced by the first bytes of `v`. -/
def Written (T : TV) (i : Nat) (v : List Byte) (T' : TV) : Prop :=
  T'.dtype = T.dtype ∧ T'.device = T.device ∧ T'.dims = T.dims ∧
  ∀ j, T'.bytes[j]? = if i * T.dtype.size ≤ j ∧ j < (i + 1) * T.dtype.size then v[j - i * T.dtype.size]? else T.bytes[j]?

/-- The next call `a` of a program that holds `W` meets its preconditions. `b`: the call checks all its allocations. The last
argument relates the status it then has to return to the tensors held after it, if no allocation fails: a new tensor is in front;
a tensor held before is still held and has the same value unless it is the one written or destroyed. -/
inductive Allowed (E : Env) (W : World) : Act → Bool → (Status → World → Prop) → Prop
  | call {c : Call} {b : Bool} {P : TV → Prop} (h : Meets E (fun p T => (p, T) ∈ W) c b P) :
    Allowed E W (.call c) b fun st W' => st = .success ∧ ∃ p T, P T ∧ W' = (p, T) :: W
  | denied {c : Call} {st : Status} (h : Denied E (fun p T => (p, T) ∈ W) c st) : Allowed E W (.call c) true fun st' W' => st' = st ∧ W' = W
  | cast {h : Ptr} {T : TV} {c c' : Code} {xs : List Val} (hd : (h, T) ∈ W) (he : Elems T c xs) (hne : c ≠ c') (hs : ShapeOK T.dims c'.size)
      (hc : ∀ x ∈ xs, ∃ y, Converts E.fp c' x y) :
    Allowed E W (.cast h c'.dtype) true fun st W' => st = .success ∧
      ∃ p ys, Pointwise (Converts E.fp c') xs ys ∧ W' = (p, ⟨c'.dtype, T.device, T.dims, encAll c' ys⟩) :: W
  | castSame {h : Ptr} {T : TV} (hd : (h, T) ∈ W) (sz : Nat) :
    Allowed E W (.cast h ⟨T.dtype.code, sz⟩) true fun st W' => st = .success ∧ W' = W
  | setItem {p : Ptr} {T : TV} {i j : Nat} {v : List Byte} (hi : W[i]? = some (p, T)) (hj : j < prod T.dims) (hv : T.dtype.size ≤ v.length) :
    Allowed E W (.setItem i j v) true fun st W' => st = .success ∧ ∃ T', Written T j v T' ∧ W' = W.set i (p, T')
  | destroy {i : Nat} (hi : i < W.length) : Allowed E W (.destroy i) true fun st W' => st = .success ∧ W' = W.eraseIdx i

/-- Every held handle denotes the tensor it should and no two tensors have memory in common. -/
def Live (m : Mem) (W : World) : Prop :=
  m.WF ∧ ∃ Rs : List Foot, W.map Prod.fst = Rs.map Foot.h ∧ (∀ (i : Nat) (R : Foot) (w : Ptr × TV), Rs[i]? = some R → W[i]? = some w → At m R w.2) ∧
    (Rs.flatMap Foot.list).Nodup

/-- The allocator refuses a request that the computation `x` would make if it had unlimited memory. -/
def Refused {α : Type} (E : Env) (x : M α) (m : Mem) : Prop :=
  ∃ a m', x E.unlimited m = .ok a m' ∧ ∃ t s, m.tick ≤ t ∧ t < m'.tick ∧ (E.allocOk t s = false ∨ E.mallocOk t s = false)

/-- However a program that holds `W` in memory `m` continues for `k` calls, choosing each call after seeing the results of those
before, as long as each call meets its preconditions: each call does what it should or, if it was refused a request, reports
`STATUS_ALLOC_FAILED` and the tensors held are as before; at every moment the handles denote the right tensors, disjoint from each
other; and the only undefined behaviour is that an operator that does not check its allocations follows a null pointer, if the
allocator refuses one of the requests it has to make. -/
def SafeFor (E : Env) : Nat → World → Mem → Prop
  | 0, W, m => Live m W
  | k + 1, W, m => Live m W ∧ ∀ a b Q, Allowed E W a b Q →
      (∃ st W' m', a.run (W.map Prod.fst) E m = .ok (st, W'.map Prod.fst) m' ∧
        (Q st W' ∨ ¬ Granted m m' ∧ st = .allocFailed ∧ W' = W) ∧ SafeFor E k W' m') ∨
      (b = false ∧ a.run (W.map Prod.fst) E m = .ub .nullDeref ∧ Refused E (a.run (W.map Prod.fst)) m)

end Aitisa
