import Verif.Proof.Elem

/-! # Raw byte buffers: splicing, typed access on arbitrary bytes, `set_item` -/

namespace Aitisa

theorem splice_length {bs src : List Byte} {off : Nat} (h : off + src.length ≤ bs.length) :
    (splice bs off src).length = bs.length := by
  simp [splice]; omega

theorem splice_get {bs src : List Byte} {off : Nat} (h : off + src.length ≤ bs.length) (k : Nat) :
    (splice bs off src)[k]? =
      if k < off then bs[k]? else if k < off + src.length then src[k - off]? else bs[k]? := by
  unfold splice
  by_cases h1 : k < off
  · rw [if_pos h1, List.append_assoc, List.getElem?_append_left (by simp; omega), List.getElem?_take,
      if_pos h1]
  · rw [if_neg h1, List.append_assoc, List.getElem?_append_right (by simp; omega)]
    have : k - (bs.take off).length = k - off := by simp; omega
    rw [this]
    by_cases h2 : k < off + src.length
    · rw [if_pos h2, List.getElem?_append_left (by omega)]
    · rw [if_neg h2, List.getElem?_append_right (by omega), List.getElem?_drop]
      congr 1; omega

/-- Window of `n` bytes at `off`. -/
theorem window_get (bs : List Byte) (off n k : Nat) :
    ((bs.drop off).take n)[k]? = if k < n then bs[off + k]? else none := by
  rw [List.getElem?_take]
  split
  · rw [List.getElem?_drop]
  · rfl

theorem window_splice_same {bs src : List Byte} {off : Nat} (h : off + src.length ≤ bs.length) :
    ((splice bs off src).drop off).take src.length = src := by
  apply List.ext_getElem?
  intro k
  rw [window_get]
  split
  · rw [splice_get h, if_neg (by omega), if_pos (by omega)]; congr 1; omega
  · rw [List.getElem?_eq_none (by omega)]

theorem window_splice_ne {bs src : List Byte} {off o n : Nat} (h : off + src.length ≤ bs.length)
    (hd : o + n ≤ off ∨ off + src.length ≤ o) :
    ((splice bs off src).drop o).take n = (bs.drop o).take n := by
  apply List.ext_getElem?
  intro k
  rw [window_get, window_get]
  split
  · rw [splice_get h]
    rcases hd with hd | hd
    · rw [if_pos (by omega)]
    · rw [if_neg (by omega), if_neg (by omega)]
  · rfl

theorem splice_self {bs src : List Byte} {off : Nat} (h : off + src.length ≤ bs.length)
    (hw : (bs.drop off).take src.length = src) : splice bs off src = bs := by
  apply List.ext_getElem?
  intro k
  rw [splice_get h]
  split
  · rfl
  · split
    · have := congrArg (·[k - off]?) hw
      simp only [window_get] at this
      rw [if_pos (by omega)] at this
      rw [← this]; congr 1; omega
    · rfl

theorem allInit_some {l : List Byte} {r : List UInt8} (h : allInit l = some r) : l = r.map some := by
  induction l generalizing r with
  | nil => simp [allInit] at h; simp [h]
  | cons b bs ih =>
    cases b with
    | none => simp [allInit] at h
    | some b =>
      simp only [allInit, Option.map_eq_some_iff] at h
      obtain ⟨r', h1, rfl⟩ := h
      simp [ih h1]

theorem inRange {i : Int} {sz len : Nat} (h : 0 ≤ i ∧ (i + 1) * sz ≤ len) :
    i.toNat * sz + sz ≤ len := by
  obtain ⟨h0, h1⟩ := h
  obtain ⟨k, rfl⟩ : ∃ k : Nat, i = k := ⟨i.toNat, by omega⟩
  simp only [Int.toNat_natCast]
  have : (((k + 1) * sz : Nat) : Int) ≤ len := by simpa using h1
  rw [Nat.add_mul, Nat.one_mul] at this
  omega

theorem slots_disjoint {i j sz : Nat} (h : i ≠ j) : j * sz + sz ≤ i * sz ∨ i * sz + sz ≤ j * sz := by
  rcases Nat.lt_or_gt_of_ne h with h | h
  · right; have := Nat.mul_le_mul_right sz h; rw [Nat.succ_mul] at this; exact this
  · left; have := Nat.mul_le_mul_right sz h; rw [Nat.succ_mul] at this; exact this

/-- Read after write, for any buffer. -/
theorem rdElem_wrElem {c : Code} {bs bs' : List Byte} {i j : Int} {v : Val} (wt : v.WT c)
    (h : wrElem c bs i v = .ok bs') : rdElem c bs' j = if j = i then .ok v else rdElem c bs j := by
  unfold wrElem at h
  split at h
  · rename_i hr
    have hb := inRange hr
    have hlen : ((encVal c v).map some).length = c.size := by simp [encVal_length]
    have hsp : i.toNat * c.size + ((encVal c v).map some).length ≤ bs.length := by rw [hlen]; exact hb
    simp only [Except.ok.injEq] at h
    subst h
    unfold rdElem
    rw [splice_length hsp]
    by_cases hj : j = i
    · subst hj
      rw [if_pos hr, if_pos rfl]
      have := window_splice_same hsp
      rw [hlen] at this
      rw [this, allInit_map]
      simp only [decVal_encVal wt]
    · rw [if_neg hj]
      by_cases hjr : 0 ≤ j ∧ (j + 1) * c.size ≤ bs.length
      · rw [if_pos hjr, if_pos hjr, window_splice_ne hsp]
        rw [hlen]
        exact slots_disjoint (by omega)
      · rw [if_neg hjr, if_neg hjr]
  · simp at h

/-- Writing back what was read changes nothing. -/
theorem wrElem_rdElem {c : Code} {bs : List Byte} {i : Int} {v : Val}
    (h : rdElem c bs i = .ok v) : wrElem c bs i v = .ok bs := by
  unfold rdElem at h
  split at h
  · rename_i hr
    have hb := inRange hr
    cases hw : allInit ((bs.drop (i.toNat * c.size)).take c.size) with
    | none => rw [hw] at h; simp at h
    | some l =>
      rw [hw] at h
      simp only [Except.ok.injEq] at h
      have hl := allInit_some hw
      have hlen : l.length = c.size := by
        have := congrArg List.length hl
        simp at this; omega
      subst h
      unfold wrElem
      rw [if_pos hr, encVal_decVal c l hlen]
      congr 1
      apply splice_self
      · simp [hlen]; omega
      · simp only [List.length_map, hlen]; exact hl
  · simp at h

theorem wrElem_oob {c : Code} {bs : List Byte} {i : Int} {v : Val}
    (h : ¬ (0 ≤ i ∧ (i + 1) * c.size ≤ bs.length)) : wrElem c bs i v = .error .outOfBounds := by
  unfold wrElem; rw [if_neg h]

theorem rdElem_oob' {c : Code} {bs : List Byte} {i : Int}
    (h : ¬ (0 ≤ i ∧ (i + 1) * c.size ≤ bs.length)) : rdElem c bs i = .error .outOfBounds := by
  unfold rdElem; rw [if_neg h]

/-! ### `set_item` -/

/-- `set_item` on an array of cells. -/
theorem setItem_run {m : Mem} {R : Foot} {T : TV} {c : Code} {os : List (Option Val)} {E : Env}
    (h : At m R T) (hdt : T.dtype = c.dtype) (hb : T.bytes = encOpt c os)
    {i : Nat} (hi : i < os.length) {v : Val} {cell rest : List Byte}
    (hc : cell = (encVal c v).map some ++ rest) :
    setItem R.h i cell E m =
      .ok () (m.set R.p (some ⟨.own, .bytes (encOpt c (os.set i (some v)))⟩)) := by
  have hlen : T.bytes.length = os.length * c.size := by rw [hb, encOpt_length]
  have hle : T.bytes.length ≤ 9223372036854775807 := by
    rw [h.len]; exact h.shape.bytes_le
  have hk := mul_succ_le (k := c.size) hi
  have hsz : T.dtype.size = c.size := by rw [hdt]; rfl
  unfold setItem
  have hmul : (i : Int) * (c.size : Int) = ((i * c.size : Nat) : Int) := by simp
  msimp [h.tData, h.tDtype, hsz, hmul, h.derefB]
  rw [run_i64_nat (by omega)]
  msimp [h.derefB]
  have hcl : c.size ≤ cell.length := by simp [hc, encVal_length]
  rw [if_pos ⟨by omega, by omega, hcl⟩, run_putBody h.data]
  congr 3
  have ht : cell.take c.size = (encVal c v).map some := by
    rw [hc, List.take_left' (by simp [encVal_length])]
  rw [ht, hb, Int.toNat_natCast]
  have := wrElem_cell (c := c) hi v
  unfold wrElem at this
  have hl : ((i : Int) + 1) * c.size ≤ ((encOpt c os).length : Int) := by
    rw [Int.add_mul, Int.one_mul, ← Int.natCast_mul, encOpt_length]; omega
  rw [if_pos ⟨by omega, hl⟩, Int.toNat_natCast] at this
  simpa using this

end Aitisa
