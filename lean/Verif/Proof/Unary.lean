import Verif.Model.NN
import Verif.Proof.Bytes

/-! # Elementwise operators: `full`, `cast`, `reshape`, `relu`, `sigmoid`, `tanh`, `sqrt` -/

namespace Aitisa

/-! ### Lists of possibly undefined operations -/

theorem bind_ok_inv {α β : Type} {x : Except UB α} {g : α → Except UB β} {b : β} (h : (x >>= g) = .ok b) :
    ∃ a, x = .ok a ∧ g a = .ok b := by
  cases x with
  | error u => cases h
  | ok a => exact ⟨a, rfl, h⟩

theorem mapM_ok {α β : Type} {f : α → Except UB β} {xs : List α} {ys : List β} (h : xs.mapM f = .ok ys) :
    ys.length = xs.length ∧ ∀ i (hi : i < xs.length) (hj : i < ys.length), f xs[i] = .ok ys[i] := by
  induction xs generalizing ys with
  | nil =>
    have : ys = [] := by simp only [List.mapM_nil] at h; cases h; rfl
    subst this; simp
  | cons x xs ih =>
    rw [List.mapM_cons] at h
    obtain ⟨y, hy, h⟩ := bind_ok_inv h
    obtain ⟨ys', hys, h⟩ := bind_ok_inv h
    cases h
    obtain ⟨h1, h2⟩ := ih hys
    refine ⟨by simp [h1], ?_⟩
    intro i hi hj
    cases i with
    | zero => exact hy
    | succ i => exact h2 i (by simpa using hi) (by simpa using hj)

theorem mapM_error {α β : Type} {f : α → Except UB β} {xs : List α} {u : UB} (h : xs.mapM f = .error u) :
    ∃ (j : Nat) (hj : j < xs.length), f xs[j] = .error u ∧
      ∀ i (hi : i < j), ∃ y, f (xs[i]'(Nat.lt_trans hi hj)) = .ok y := by
  induction xs with
  | nil => simp only [List.mapM_nil] at h; cases h
  | cons x xs ih =>
    rw [List.mapM_cons] at h
    cases hx : f x with
    | error v =>
      rw [hx] at h; cases h
      exact ⟨0, by simp, hx, by intro i hi; omega⟩
    | ok y =>
      rw [hx] at h
      cases hm : xs.mapM f with
      | error v =>
        have h' : ((xs.mapM f) >>= fun bs => pure (y :: bs)) = (.error u : Except UB (List β)) := h
        rw [hm] at h'; cases h'
        obtain ⟨j, hj, h1, h2⟩ := ih hm
        refine ⟨j + 1, by simpa using hj, h1, ?_⟩
        intro i hi
        cases i with
        | zero => exact ⟨y, hx⟩
        | succ i => exact h2 i (by omega)
      | ok ys =>
        have h' : ((xs.mapM f) >>= fun bs => pure (y :: bs)) = (.error u : Except UB (List β)) := h
        rw [hm] at h'; cases h'

theorem mapM_total {α β : Type} {f : α → Except UB β} {g : α → β} (h : ∀ x, f x = .ok (g x)) (xs : List α) :
    xs.mapM f = .ok (xs.map g) := by
  induction xs with
  | nil => rfl
  | cons x xs ih => rw [List.mapM_cons, h, ih]; rfl

theorem mapM_mem {α β : Type} {f : α → Except UB β} {xs : List α} {ys : List β} (h : xs.mapM f = .ok ys)
    {P : β → Prop} (hp : ∀ x ∈ xs, ∀ y, f x = .ok y → P y) : ∀ y ∈ ys, P y := by
  obtain ⟨hl, hf⟩ := mapM_ok h
  intro y hy
  obtain ⟨i, hi, rfl⟩ := List.mem_iff_getElem.mp hy
  exact hp _ (List.getElem_mem (by omega)) _ (hf i (by omega) hi)

/-! ### Conversions yield values of the target type -/

theorem cCast_WT {fp : FloatOps} {c : Code} {v w : Val} (h : cCast fp c v = .ok w) : w.WT c := by
  cases c <;> simp only [cCast] at h
  case f32 => cases h; trivial
  case f64 => cases h; trivial
  all_goals
    cases v with
    | int n => cases h; exact wrap_in _ n
    | f32 b =>
      simp only at h
      split at h
      · split at h
        · cases h; assumption
        · cases h
      · cases h
    | f64 b =>
      simp only at h
      split at h
      · split at h
        · cases h; assumption
        · cases h
      · cases h

theorem zeroOf_WT (fp : FloatOps) (c : Code) : (zeroOf fp c).WT c := by
  cases c <;> simp [zeroOf, Val.WT, Code.lo, Code.hi, Code.signed, Code.size]

/-! ### The loop -/

/-- The memory where block `q` holds the elements `ys`. -/
abbrev Mem.withElems (m : Mem) (q : Nat) (c : Code) (ys : List Val) : Mem :=
  m.set q (some ⟨.own, .bytes (encAll c ys)⟩)

theorem range_getD {α} [Inhabited α] {ys : List α} {n : Nat} (h : ys.length = n) :
    (List.range n).map (fun i => ys.getD i default) = ys := by
  apply List.ext_getElem
  · simp [h]
  · intro i h1 h2; simp [List.getD, h2]

theorem mapLoop_run {E : Env} {m : Mem} {R : Foot} {T : TV} {c c' : Code} {xs ys : List Val} {q : Nat}
    {os : List (Option Val)} {f : Val → Except UB Val} {n : Int}
    (h : At m R T) (he : Elems T c xs) (hq : m.blk q = some ⟨.own, .bytes (encOpt c' os)⟩)
    (hne : q ∉ R.list) (hl : os.length = xs.length) (hn : n = xs.length) (hd : xs.mapM f = .ok ys) :
    mapLoop c c' (.blk R.p) (.blk q) n f E m = .ok () (m.withElems q c' ys) := by
  obtain ⟨hl', hf⟩ := mapM_ok hd
  unfold mapLoop forI
  rw [hn, Int.toNat_natCast, ← hl]
  rw [fillElems hq _ (fun i => ys.getD i default)]
  · rw [range_getD (by omega)]
  · intro i bs hi
    have hi' : i < xs.length := by omega
    have hl := (h.set_ne hne (some ⟨.own, .bytes bs⟩)).load (E := E) he hi'
    have hg : ys.getD i default = ys[i] := by simp [List.getD, hl', hi']
    msimp [hl, hf i hi' (by omega), hg]

theorem mapLoop_ub {E : Env} {m : Mem} {R : Foot} {T : TV} {c c' : Code} {xs : List Val} {q : Nat}
    {os : List (Option Val)} {f : Val → Except UB Val} {n : Int} {u : UB}
    (h : At m R T) (he : Elems T c xs) (hq : m.blk q = some ⟨.own, .bytes (encOpt c' os)⟩)
    (hne : q ∉ R.list) (hl : os.length = xs.length) (hn : n = xs.length) (hd : xs.mapM f = .error u) :
    mapLoop c c' (.blk R.p) (.blk q) n f E m = .ub u := by
  obtain ⟨j, hj, hu, hok⟩ := mapM_error hd
  unfold mapLoop forI
  rw [hn, Int.toNat_natCast]
  refine loopN_ubInv _ (fun _ _ m' => ∃ os' : List (Option Val), os'.length = os.length ∧
    m' = m.set q (some ⟨.own, .bytes (encOpt c' os')⟩)) _ j u hj ?_ ?_
    ⟨os, rfl, (Mem.set_self _ _ _ hq).symm⟩
  · rintro i _ _ hi ⟨os', hlen, rfl⟩
    obtain ⟨y, hy⟩ := hok i hi
    have hload := (h.set_ne hne (some ⟨.own, .bytes (encOpt c' os')⟩)).load (E := E) he
      (Nat.lt_trans hi hj)
    refine ⟨(), _, ?_, os'.set i (some y), by simp [hlen], rfl⟩
    msimp [hload, hy]
    rw [run_storeElem (Mem.set_blk_same _ _ _) (by omega), Mem.set_set]
  · rintro _ _ ⟨os', hlen, rfl⟩
    have hload := (h.set_ne hne (some ⟨.own, .bytes (encOpt c' os')⟩)).load (E := E) he hj
    msimp [hload, hu]

/-- A new tensor without data has an array of uninitialised cells. -/
theorem fresh_cells {m m' : Mem} {R : Foot} {c : Code} {dev : Device} {ds : List Nat}
    (P : Produces m m' R ⟨c.dtype, dev, ds, List.replicate (prod ds * c.size) none⟩) :
    m'.blk R.p = some ⟨.own, .bytes (encOpt c (List.replicate (prod ds) none))⟩ := by
  rw [encOpt_replicate]; exact P.tensor.data

theorem Produces.disjoint {m m' : Mem} {R R' : Foot} {T T' : TV} (wf : m.WF) (h : At m R T)
    (P : Produces m m' R' T') {b : Nat} (hb : b ∈ R'.list) : b ∉ R.list := by
  intro hb'
  have := h.lt wf hb'
  have := P.fresh b hb
  omega

/-- Filling a new tensor elementwise from an existing one. -/
theorem unary_finish {E : Env} {m m1 : Mem} {R R' : Foot} {T : TV} {c c' : Code} {dev : Device}
    {xs ys : List Val} {f : Val → Except UB Val} (wf : m.WF) (h : At m R T) (he : Elems T c xs)
    (P : Produces m m1 R' ⟨c'.dtype, dev, T.dims, List.replicate (prod T.dims * c'.size) none⟩)
    (hd : xs.mapM f = .ok ys) :
    ∃ m2, mapLoop c c' (.blk R.p) (.blk R'.p) (prod T.dims : Int) f E m1 = .ok () m2 ∧
      Produces m m2 R' ⟨c'.dtype, dev, T.dims, encAll c' ys⟩ := by
  have hrun := mapLoop_run (E := E) (h.frame wf P.frame) he (fresh_cells P)
    (P.disjoint wf h (by simp [mem_foot])) (by simp [he.len]) (n := (prod T.dims : Int)) (by simp [he.len]) hd
  have hl := (mapM_ok hd).1
  exact ⟨_, hrun, P.setData (bs := encAll c' ys) (by simp [encAll_length, hl, he.len])⟩

theorem unary_ub {E : Env} {m m1 : Mem} {R R' : Foot} {T : TV} {c c' : Code} {dev : Device}
    {xs : List Val} {f : Val → Except UB Val} {u : UB} (wf : m.WF) (h : At m R T) (he : Elems T c xs)
    (P : Produces m m1 R' ⟨c'.dtype, dev, T.dims, List.replicate (prod T.dims * c'.size) none⟩)
    (hd : xs.mapM f = .error u) :
    mapLoop c c' (.blk R.p) (.blk R'.p) (prod T.dims : Int) f E m1 = .ub u :=
  mapLoop_ub (E := E) (h.frame wf P.frame) he (fresh_cells P)
    (P.disjoint wf h (by simp [mem_foot])) (by simp [he.len]) (by simp [he.len]) hd

theorem createLike_run {E : Env} {m : Mem} {R : Foot} {T : TV} (wf : m.WF) (h : At m R T) (out : Ptr) :
    Creates E (createLike R.h out) m out
      ⟨T.dtype, T.device, T.dims, List.replicate (prod T.dims * T.dtype.size) none⟩ := by
  have := create_run (E := E) wf T.dtype T.device h.shape 0 out
  unfold Creates at this ⊢
  unfold createLike
  msimp [h.tDimsArr, h.tNdim, h.tDtype, h.tDevice]
  exact this

/-- Size of an element type in a shape. -/
theorem shape_of_code {T : TV} {c : Code} {xs : List Val} (he : Elems T c xs) :
    T.dtype.size = c.size := by rw [he.dtype]; rfl

/-! ### relu, sigmoid, tanh -/

theorem relu_run {E : Env} {m : Mem} {R : Foot} {T : TV} {c : Code} {xs ys : List Val} (wf : m.WF)
    (h : At m R T) (he : Elems T c xs) (hd : xs.mapM (reluF E.fp c) = .ok ys) (out : Ptr) :
    Creates E (relu R.h out) m out { T with bytes := encAll c ys } := by
  have hc := createLike_run (E := E) wf h out
  unfold Creates at hc ⊢
  unfold relu
  rcases hc with ⟨R', m1, e, P⟩ | ⟨m1, e, fr, wf1, nf⟩
  · left
    have h1 := h.frame wf P.frame
    rw [he.dtype] at P
    obtain ⟨m2, e2, P2⟩ := unary_finish (E := E) wf h he P hd
    refine ⟨R', m2, ?_, by rw [← he.dtype] at P2; exact P2⟩
    have hf := find_dtype c
    msimp [e, h1.tDtype, h1.tSize, he.dtype, hf, h1.tData, P.tensor.tData, e2]
  · right
    exact ⟨m1, by msimp [e], fr, wf1, nf⟩

theorem findFloat_dtype {c : Code} (h : c = .f32 ∨ c = .f64) : Code.findFloat c.dtype.code = some c := by
  rcases h with rfl | rfl <;> rfl

theorem findFloat_none {n : Nat} (h : ∀ c, Code.find n = some c → c ≠ .f32 ∧ c ≠ .f64) :
    Code.findFloat n = none := by
  unfold Code.findFloat
  split
  · rename_i hc; exact absurd rfl (h _ hc).1
  · rename_i hc; exact absurd rfl (h _ hc).2
  · rfl

theorem sigmoid_run {E : Env} {m : Mem} {R : Foot} {T : TV} {c : Code} {xs ys : List Val} (wf : m.WF)
    (hc : c = .f32 ∨ c = .f64) (h : At m R T) (he : Elems T c xs)
    (hd : xs.mapM (sigmoidF E.fp c) = .ok ys) (out : Ptr) :
    Creates E (sigmoid R.h out) m out { T with bytes := encAll c ys } := by
  have hcr := createLike_run (E := E) wf h out
  unfold Creates at hcr ⊢
  unfold sigmoid
  rcases hcr with ⟨R', m1, e, P⟩ | ⟨m1, e, fr, wf1, nf⟩
  · left
    have h1 := h.frame wf P.frame
    rw [he.dtype] at P
    obtain ⟨m2, e2, P2⟩ := unary_finish (E := E) wf h he P hd
    refine ⟨R', m2, ?_, by rw [← he.dtype] at P2; exact P2⟩
    msimp [e, h1.tDtype, h1.tSize, he.dtype, findFloat_dtype hc, h1.tData, P.tensor.tData, e2]
  · right
    exact ⟨m1, by msimp [e], fr, wf1, nf⟩

theorem tanh_run {E : Env} {m : Mem} {R : Foot} {T : TV} {c : Code} {xs ys : List Val} (wf : m.WF)
    (hc : c = .f32 ∨ c = .f64) (h : At m R T) (he : Elems T c xs)
    (hd : xs.mapM (tanhF E.fp c) = .ok ys) (out : Ptr) :
    Creates E (tanh R.h out) m out { T with bytes := encAll c ys } := by
  have hcr := createLike_run (E := E) wf h out
  unfold Creates at hcr ⊢
  unfold tanh
  rcases hcr with ⟨R', m1, e, P⟩ | ⟨m1, e, fr, wf1, nf⟩
  · left
    have h1 := h.frame wf P.frame
    rw [he.dtype] at P
    obtain ⟨m2, e2, P2⟩ := unary_finish (E := E) wf h he P hd
    refine ⟨R', m2, ?_, by rw [← he.dtype] at P2; exact P2⟩
    msimp [e, h1.tDtype, h1.tSize, he.dtype, findFloat_dtype hc, h1.tData, P.tensor.tData, e2]
  · right
    exact ⟨m1, by msimp [e], fr, wf1, nf⟩

/-! ### sqrt -/

/-- Body of the `sqrt` loop on a non-negative element. -/
def sqrtF (fp : FloatOps) (c : Code) (v : Val) : Except UB Val :=
  cCast fp c (.f64 (fp.sqrt64 (toDouble fp v)))

theorem sqrtKernel_run {E : Env} {m : Mem} {R : Foot} {T : TV} {c : Code} {xs ys : List Val} {q : Nat}
    {os : List (Option Val)} {n : Int}
    (h : At m R T) (he : Elems T c xs) (hq : m.blk q = some ⟨.own, .bytes (encOpt c os)⟩)
    (hne : q ∉ R.list) (hl : os.length = xs.length) (hn : n = xs.length)
    (hpos : ∀ x ∈ xs, isNeg E.fp x = false) (hd : xs.mapM (sqrtF E.fp c) = .ok ys) :
    sqrtKernel c (.blk R.p) (.blk q) n E m = .ok .success (m.withElems q c ys) := by
  obtain ⟨hl', hf⟩ := mapM_ok hd
  unfold sqrtKernel
  have key := loopE_inv (E := E) (ρ := Status) (fun i (_ : Unit) => (do
      let v ← loadElem c (.blk R.p) i
      if isNeg E.fp v then return .inr .mathError
      let w ← liftU (cCast E.fp c (.f64 (E.fp.sqrt64 (toDouble E.fp v))))
      storeElem c (.blk q) i w
      return .inl () : M (Unit ⊕ Status)))
    (fun i _ m' => m' = m.set q (some ⟨.own, .bytes (encOpt c
      ((List.range i).map (fun i => some (ys.getD i default)) ++ os.drop i))⟩)) n.toNat (by
      rintro i _ _ hi rfl
      have hi' : i < xs.length := by omega
      have hload := (h.set_ne hne (some ⟨.own, .bytes (encOpt c
        ((List.range i).map (fun i => some (ys.getD i default)) ++ os.drop i))⟩)).load (E := E) he hi'
      have hneg := hpos _ (List.getElem_mem hi')
      have hs : cCast E.fp c (.f64 (E.fp.sqrt64 (toDouble E.fp xs[i]))) = .ok ys[i] := hf i hi' (by omega)
      refine ⟨(), _, ?_, rfl⟩
      msimp [hload, hneg, hs]
      rw [run_storeElem (Mem.set_blk_same _ _ _) (by simp; omega)]
      msimp [Mem.set_set]
      have hg : ys[i] = ys.getD i default := by simp [List.getD, hl', hi']
      rw [hg, set_fill (fun i => some (ys.getD i default)) os i (by omega)])
    (s := ()) (m := m) (by simp [Mem.set_self _ _ _ hq])
  obtain ⟨_, m', e, hm⟩ := key
  msimp [e]
  subst hm
  have hnn : n.toNat = os.length := by omega
  rw [hnn, List.drop_length, List.append_nil]
  have : (List.range os.length).map (fun i => some (ys.getD i default)) =
      ((List.range os.length).map (fun i => ys.getD i default)).map some := by simp
  rw [this, range_getD (by omega), ← encAll_eq]

theorem sqrtKernel_neg {E : Env} {m : Mem} {R : Foot} {T : TV} {c : Code} {xs : List Val} {q : Nat}
    {os : List (Option Val)} {n : Int}
    (h : At m R T) (he : Elems T c xs) (hq : m.blk q = some ⟨.own, .bytes (encOpt c os)⟩)
    (hne : q ∉ R.list) (hl : os.length = xs.length) (hn : n = xs.length)
    {j : Nat} (hj : j < xs.length) (hneg : isNeg E.fp xs[j] = true)
    (hok : ∀ i (hi : i < j), isNeg E.fp (xs[i]'(Nat.lt_trans hi hj)) = false ∧
      ∃ y, sqrtF E.fp c (xs[i]'(Nat.lt_trans hi hj)) = .ok y) :
    ∃ os' : List (Option Val), os'.length = os.length ∧
      sqrtKernel c (.blk R.p) (.blk q) n E m =
        .ok .mathError (m.set q (some ⟨.own, .bytes (encOpt c os')⟩)) := by
  unfold sqrtKernel
  have key := loopE_ret (E := E) (ρ := Status) (fun i (_ : Unit) => (do
      let v ← loadElem c (.blk R.p) i
      if isNeg E.fp v then return .inr .mathError
      let w ← liftU (cCast E.fp c (.f64 (E.fp.sqrt64 (toDouble E.fp v))))
      storeElem c (.blk q) i w
      return .inl () : M (Unit ⊕ Status)))
    (fun _ _ m' => ∃ os' : List (Option Val), os'.length = os.length ∧
      m' = m.set q (some ⟨.own, .bytes (encOpt c os')⟩)) n.toNat j
    (fun st m' => st = .mathError ∧ ∃ os' : List (Option Val), os'.length = os.length ∧
      m' = m.set q (some ⟨.own, .bytes (encOpt c os')⟩)) (by omega) (by
      rintro i _ _ hi ⟨os', hlen, rfl⟩
      obtain ⟨hp, y, hy⟩ := hok i hi
      have hload := (h.set_ne hne (some ⟨.own, .bytes (encOpt c os')⟩)).load (E := E) he
        (Nat.lt_trans hi hj)
      refine ⟨(), _, ?_, os'.set i (some y), by simp [hlen], rfl⟩
      have hs : cCast E.fp c (.f64 (E.fp.sqrt64 (toDouble E.fp (xs[i]'(Nat.lt_trans hi hj))))) = .ok y := hy
      msimp [hload, hp, hs]
      rw [run_storeElem (Mem.set_blk_same _ _ _) (by omega)]
      msimp [Mem.set_set]) (by
      rintro _ _ ⟨os', hlen, rfl⟩
      have hload := (h.set_ne hne (some ⟨.own, .bytes (encOpt c os')⟩)).load (E := E) he hj
      exact ⟨.mathError, _, by msimp [hload, hneg], rfl, os', hlen, rfl⟩)
    (s := ()) (m := m) ⟨os, rfl, (Mem.set_self _ _ _ hq).symm⟩
  obtain ⟨_, m', e, rfl, os', hlen, rfl⟩ := key
  exact ⟨os', hlen, by msimp [e]⟩

theorem sqrt_run {E : Env} {m : Mem} {R : Foot} {T : TV} {c : Code} {xs ys : List Val} (wf : m.WF)
    (h : At m R T) (he : Elems T c xs) (hpos : ∀ x ∈ xs, isNeg E.fp x = false)
    (hd : xs.mapM (sqrtF E.fp c) = .ok ys) (out : Ptr) :
    Creates E (sqrt R.h out) m out { T with bytes := encAll c ys } := by
  have hcr := createLike_run (E := E) wf h out
  unfold Creates at hcr ⊢
  unfold sqrt
  rcases hcr with ⟨R', m1, e, P⟩ | ⟨m1, e, fr, wf1, nf⟩
  · left
    have h1 := h.frame wf P.frame
    rw [he.dtype] at P
    have hk := sqrtKernel_run (E := E) h1 he (fresh_cells P)
      (P.disjoint wf h (by simp [mem_foot])) (by simp [he.len]) (n := (prod T.dims : Int)) (by simp [he.len])
      hpos hd
    have hl := (mapM_ok hd).1
    refine ⟨R', m1.withElems R'.p c ys, ?_, ?_⟩
    · msimp [e, h1.tDtype, h1.tSize, he.dtype, find_dtype c, h1.tData, P.tensor.tData, hk]
    · have P2 := P.setData (bs := encAll c ys) (by simp [encAll_length, hl, he.len]; rfl)
      rw [he.dtype]; exact P2
  · right
    exact ⟨m1, by msimp [e], fr, wf1, nf⟩

theorem sqrt_neg {E : Env} {m : Mem} {R : Foot} {T : TV} {c : Code} {xs : List Val} (wf : m.WF)
    (h : At m R T) (he : Elems T c xs) {j : Nat} (hj : j < xs.length) (hneg : isNeg E.fp xs[j] = true)
    (hok : ∀ i (hi : i < j), isNeg E.fp (xs[i]'(Nat.lt_trans hi hj)) = false ∧
      ∃ y, sqrtF E.fp c (xs[i]'(Nat.lt_trans hi hj)) = .ok y) (out : Ptr) :
    (∃ R' m' T', sqrt R.h out E m = .ok (.mathError, R'.h) m' ∧ Produces m m' R' T' ∧
      T'.dims = T.dims ∧ T'.dtype = T.dtype) ∨
    (∃ m', sqrt R.h out E m = .ok (.allocFailed, out) m' ∧ Frame m m' ∧ m'.WF ∧ ¬ E.NoFail) := by
  have hcr := createLike_run (E := E) wf h out
  unfold Creates at hcr
  unfold sqrt
  rcases hcr with ⟨R', m1, e, P⟩ | ⟨m1, e, fr, wf1, nf⟩
  · left
    have h1 := h.frame wf P.frame
    rw [he.dtype] at P
    obtain ⟨os', hlen, hk⟩ := sqrtKernel_neg (E := E) h1 he (fresh_cells P)
      (P.disjoint wf h (by simp [mem_foot])) (by simp [he.len]) (n := (prod T.dims : Int)) (by simp [he.len])
      hj hneg hok
    have P2 := P.setData (bs := encOpt c os') (by rw [encOpt_length, hlen]; simp; rfl)
    refine ⟨R', _, _, ?_, P2, rfl, he.dtype.symm⟩
    msimp [e, h1.tDtype, h1.tSize, he.dtype, find_dtype c, h1.tData, P.tensor.tData, hk]
  · right
    exact ⟨m1, by msimp [e], fr, wf1, nf⟩

/-! ### cast -/

theorem code_inj {c c' : Code} (h : c.dtype.code = c'.dtype.code) : c = c' := by
  cases c <;> cases c' <;> first | rfl | (simp [Code.dtype, Code.toNat] at h)

theorem cast_run {E : Env} {m : Mem} {R : Foot} {T : TV} {c c' : Code} {xs ys : List Val} (wf : m.WF)
    (h : At m R T) (he : Elems T c xs) (hne : c ≠ c') (hs : ShapeOK T.dims c'.size)
    (hd : xs.mapM (cCast E.fp c') = .ok ys) (out : Ptr) :
    Creates E (cast R.h c'.dtype out) m out ⟨c'.dtype, T.device, T.dims, encAll c' ys⟩ := by
  have hcr := create_run (E := E) wf c'.dtype T.device (ds := T.dims) hs 0 .indet
  unfold Creates at hcr ⊢
  unfold cast castTemplate
  have hcode : ¬ c.dtype.code = c'.dtype.code := fun hh => hne (code_inj hh)
  rcases hcr with ⟨R', m1, e, P⟩ | ⟨m1, e, fr, wf1, nf⟩
  · left
    have h1 := h.frame wf P.frame
    obtain ⟨m2, e2, P2⟩ := unary_finish (E := E) wf h he P hd
    refine ⟨R', m2, ?_, P2⟩
    msimp [h.tDtype, he.dtype, hcode, h.tDevice, h.tDimsArr, h.tNdim, e, h1.tDtype, h1.tSize, h1.tData,
      P.tensor.tData, find_dtype, e2]
  · right
    exact ⟨m1, by msimp [h.tDtype, he.dtype, hcode, h.tDevice, h.tDimsArr, h.tNdim, e], fr, wf1, nf⟩

theorem cast_ub {E : Env} {m : Mem} {R : Foot} {T : TV} {c c' : Code} {xs : List Val} {u : UB} (wf : m.WF)
    (h : At m R T) (he : Elems T c xs) (hne : c ≠ c') (hs : ShapeOK T.dims c'.size) (nf : E.NoFail)
    (hd : xs.mapM (cCast E.fp c') = .error u) (out : Ptr) :
    cast R.h c'.dtype out E m = .ub u := by
  have hcr := create_run (E := E) wf c'.dtype T.device (ds := T.dims) hs 0 .indet
  unfold Creates at hcr
  unfold cast castTemplate
  have hcode : ¬ c.dtype.code = c'.dtype.code := fun hh => hne (code_inj hh)
  rcases hcr with ⟨R', m1, e, P⟩ | ⟨m1, e, fr, wf1, nf'⟩
  · have h1 := h.frame wf P.frame
    have e2 := unary_ub (E := E) wf h he P hd
    msimp [h.tDtype, he.dtype, hcode, h.tDevice, h.tDimsArr, h.tNdim, e, h1.tDtype, h1.tSize, h1.tData,
      P.tensor.tData, find_dtype, e2]
  · exact absurd nf nf'

/-! ### full -/

theorem fullCell_ok {fp : FloatOps} {c : Code} {value : BitVec 64} {v : Val}
    (h : cCast fp c (.f64 value) = .ok v) :
    ∃ rest, fullCell fp c value = .ok ((encVal c v).map some ++ rest) := by
  unfold fullCell
  rw [h]
  exact ⟨((encVal .f64 (.f64 value)).map some).drop (0 + ((encVal c v).map some).length), by
    simp [splice, bind, Except.bind, pure, Except.pure]⟩

theorem fullCell_err {fp : FloatOps} {c : Code} {value : BitVec 64} {u : UB}
    (h : cCast fp c (.f64 value) = .error u) : fullCell fp c value = .error u := by
  unfold fullCell; rw [h]; rfl

theorem full_run {E : Env} {m : Mem} (wf : m.WF) (c : Code) (dev : Device) {ds : List Nat}
    (hs : ShapeOK ds c.size) (hi : prod ds ≤ 2147483647) (value : BitVec 64) {v : Val}
    (hv : cCast E.fp c (.f64 value) = .ok v) (out : Ptr) :
    Creates E (full c.dtype dev (dimsCells ds) ds.length value out) m out
      ⟨c.dtype, dev, ds, encAll c (List.replicate (prod ds) v)⟩ := by
  have hcr := create_run (E := E) wf c.dtype dev (ds := ds) hs 0 .indet
  unfold Creates at hcr ⊢
  unfold full
  obtain ⟨rest, hcell⟩ := fullCell_ok hv
  rcases hcr with ⟨R', m1, e, P⟩ | ⟨m1, e, fr, wf1, nf⟩
  · left
    have hfc := fresh_cells P
    have hloop := loopN_fn (E := E) (fun i (_ : Unit) => setItem R'.h i ((encVal c v).map some ++ rest))
      (fun _ => ()) (fun i => m1.set R'.p (some ⟨.own, .bytes (encOpt c
        ((List.range i).map (fun _ => some v) ++ (List.replicate (prod ds) none).drop i))⟩)) (prod ds) (by
        intro i hi
        have P' := P.setData (bs := encOpt c
          ((List.range i).map (fun _ => some v) ++ (List.replicate (prod ds) none).drop i)) (by
            simp [encOpt_length]; congr 1; omega)
        rw [setItem_run (c := c) P'.tensor rfl rfl (by simp; omega) (v := v) rfl, Mem.set_set,
          set_fill (fun _ => some v) (List.replicate (prod ds) none) i (by simpa using hi)])
    simp only [List.range_zero, List.map_nil, List.nil_append, List.drop_zero] at hloop
    rw [Mem.set_self _ _ _ hfc] at hloop
    have hlast : (List.range (prod ds)).map (fun _ => some v) ++ (List.replicate (prod ds) none).drop (prod ds) =
        (List.replicate (prod ds) v).map some := by
      simp [List.map_const']
    rw [hlast, ← encAll_eq] at hloop
    refine ⟨R', _, ?_, P.setData (bs := encAll c (List.replicate (prod ds) v)) (by simp [encAll_length]; rfl)⟩
    have htab : tableCode c.dtype = pure c := by unfold tableCode; rw [find_dtype]
    have h32 : ((prod ds : Int) ≤ I32_MAX) := by unfold I32_MAX; omega
    msimp [e, P.tensor.tSize, htab, hcell, forI32, h32, Int.toNat_natCast, hloop]
  · right
    exact ⟨m1, by msimp [e], fr, wf1, nf⟩

/-! ### reshape -/

theorem reshape_run {E : Env} {m : Mem} {R : Foot} {T : TV} (wf : m.WF) (h : At m R T) {ds : List Nat}
    (hs : ShapeOK ds T.dtype.size) (hp : prod ds = prod T.dims) (out : Ptr) :
    Creates E (reshape R.h (dimsCells ds) ds.length out) m out { T with dims := ds } := by
  have hcr := create_run (E := E) wf T.dtype T.device (ds := ds) hs 0 .indet
  unfold Creates at hcr ⊢
  unfold reshape
  have hsz := fun m => sizeOfDims_run (E := E) (m := m) hs.rank (fun k _ => hs.prefix k)
  rcases hcr with ⟨R', m1, e, P⟩ | ⟨m1, e, fr, wf1, nf⟩
  · left
    have h1 := h.frame wf P.frame
    have hlen : T.bytes.length = prod ds * T.dtype.size := by rw [h.len, hp]
    refine ⟨R', _, ?_, P.setData (bs := T.bytes) (by simp [hlen])⟩
    have hmul : ((prod ds : Int) * (T.dtype.size : Int)) = ((prod ds * T.dtype.size : Nat) : Int) := by simp
    msimp [h.tSize, hsz, ← hp, h.tDevice, h.tDtype, e, h1.tData, P.tensor.tData, hmul,
      run_i64_nat hs.bytes_le, toSizeT_nat hs.bytes_le]
    unfold memcpyB
    have hle : prod ds * T.dtype.size ≤ T.bytes.length ∧
      prod ds * T.dtype.size ≤ (List.replicate (prod ds * T.dtype.size) (none : Byte)).length := by simp [hlen]
    msimp [h1.derefB, P.tensor.derefB]
    rw [if_pos hle, run_putBody P.tensor.data]
    msimp []
    have : splice (List.replicate (prod ds * T.dtype.size) none) 0 (T.bytes.take (prod ds * T.dtype.size)) = T.bytes := by
      simp only [splice, List.take_zero, List.nil_append, Nat.zero_add]
      rw [List.take_of_length_le (by omega), List.drop_eq_nil_of_le (by simp [hlen]), List.append_nil]
    rw [this]
  · right
    refine ⟨m1, ?_, fr, wf1, nf⟩
    msimp [h.tSize, hsz, ← hp, h.tDevice, h.tDtype, e]

theorem reshape_mismatch {E : Env} {m : Mem} {R : Foot} {T : TV} (h : At m R T) {ds : List Nat}
    (hs : ShapeOK ds T.dtype.size) (hp : prod ds ≠ prod T.dims) (out : Ptr) :
    reshape R.h (dimsCells ds) ds.length out E m = .ok (.dimensionsMismatch, out) m := by
  unfold reshape
  have hsz := fun m => sizeOfDims_run (E := E) (m := m) hs.rank (fun k _ => hs.prefix k)
  have : ¬ (prod T.dims : Int) = (prod ds : Int) := by omega
  msimp [h.tSize, hsz, this]

end Aitisa
