import Verif.Proof.Unary

/-! # Element arrays described by functions -/

namespace Aitisa

variable {E : Env} {m : Mem}

/-- The first `n` values of a function. -/
def tab {α : Type} (n : Nat) (G : Nat → α) : List α := (List.range n).map G

theorem tab_length {α} (n : Nat) (G : Nat → α) : (tab n G).length = n := by simp [tab]

theorem tab_congr {α} {n : Nat} {G H : Nat → α} (h : ∀ i, i < n → G i = H i) : tab n G = tab n H :=
  List.map_congr_left fun i hi => h i (List.mem_range.1 hi)

theorem tab_set {α} {n k : Nat} {G H : Nat → α} {v : α} (h : ∀ i, i < n → H i = if i = k then v else G i) :
    (tab n G).set k v = tab n H := by
  apply List.ext_getElem
  · simp [tab]
  · intro i h1 h2
    rw [tab_length] at h2
    simp only [tab, List.getElem_set, List.getElem_map, List.getElem_range]
    rw [h i h2]
    by_cases e : k = i
    · simp [e]
    · rw [if_neg e, if_neg (Ne.symm e)]

theorem tab_get {α} {n i : Nat} (G : Nat → α) (h : i < n) : (tab n G)[i]? = some (G i) := by
  simp [tab, h]

/-- Memory with the array at `q` as given. -/
def Mem.arr (m : Mem) (q : Nat) (c : Code) (N : Nat) (G : Nat → Option Val) : Mem :=
  m.set q (some ⟨.own, .bytes (encOpt c (tab N G))⟩)

theorem Mem.arr_arr (m : Mem) (q : Nat) (c c' : Code) (N N' : Nat) (G G') : (m.arr q c N G).arr q c' N' G' = m.arr q c' N' G' :=
  Mem.set_set ..

theorem Mem.arr_congr (m : Mem) (q : Nat) (c : Code) {N : Nat} {G H : Nat → Option Val} (h : ∀ i, i < N → G i = H i) :
    m.arr q c N G = m.arr q c N H := by
  unfold Mem.arr; rw [tab_congr h]

theorem storeArr {q N k : Nat} {c : Code} {G H : Nat → Option Val} {v : Val} (hk : k < N)
    (h : ∀ i, i < N → H i = if i = k then some v else G i) :
    storeElem c (.blk q) k v E (m.arr q c N G) = .ok () (m.arr q c N H) := by
  unfold Mem.arr
  rw [run_storeElem (Mem.set_blk_same _ _ _) (by rw [tab_length]; exact hk), tab_set h, Mem.set_set]

theorem loadArr {q N k : Nat} {c : Code} {G : Nat → Option Val} {v : Val} (hk : k < N) (h : G k = some v) (wt : v.WT c) :
    loadElem c (.blk q) k E (m.arr q c N G) = .ok v (m.arr q c N G) := by
  unfold Mem.arr
  exact run_loadElem (Mem.set_blk_same _ _ _) (by rw [tab_get _ hk, h]) wt

theorem run_liftU {x : Except UB Val} {v : Val} (h : x = .ok v) : liftU x E m = .ok v m := by rw [h]; rfl

end Aitisa
