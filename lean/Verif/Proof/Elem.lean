import Verif.Proof.Tensor

/-! # Element encoding, typed loads and stores -/

namespace Aitisa

theorem leBytes_length (k x : Nat) : (leBytes k x).length = k := by
  induction k generalizing x with
  | zero => rfl
  | succ k ih => simp [leBytes, ih]

theorem fromLE_leBytes (k x : Nat) : fromLE (leBytes k x) = x % 256 ^ k := by
  induction k generalizing x with
  | zero => simp [leBytes, fromLE, Nat.mod_one]
  | succ k ih =>
    simp only [leBytes, fromLE, ih, UInt8.toNat_ofNat']
    rw [Nat.pow_succ 256 k, Nat.mul_comm (256 ^ k) 256, Nat.mod_mul]

theorem fromLE_lt (l : List UInt8) : fromLE l < 256 ^ l.length := by
  induction l with
  | nil => simp [fromLE]
  | cons b bs ih =>
    simp only [fromLE, List.length_cons, Nat.pow_succ]
    have := b.toNat_lt
    omega

theorem leBytes_fromLE (l : List UInt8) : leBytes l.length (fromLE l) = l := by
  induction l with
  | nil => rfl
  | cons b bs ih =>
    have hb := b.toNat_lt
    simp only [List.length_cons, leBytes, fromLE]
    have h1 : (b.toNat + 256 * fromLE bs) / 256 = fromLE bs := by omega
    have h2 : UInt8.ofNat (b.toNat + 256 * fromLE bs) = b := by
      apply UInt8.toNat_inj.mp
      rw [UInt8.toNat_ofNat']
      omega
    rw [h1, h2, ih]

theorem encVal_length (c : Code) (v : Val) : (encVal c v).length = c.size := by
  cases v <;> simp [encVal, leBytes_length]

theorem Code.size_pos (c : Code) : 0 < c.size := by cases c <;> decide

theorem Code.size_le (c : Code) : c.size ≤ 8 := by cases c <;> decide

theorem find_toNat (c : Code) : Code.find c.toNat = some c := by cases c <;> rfl

theorem find_dtype (c : Code) : Code.find c.dtype.code = some c := find_toNat c

theorem pow256 (k : Nat) : (256 : Nat) ^ k = 2 ^ (8 * k) := by
  rw [Nat.pow_mul]

/-- Conversion to an integer type lands in its range. -/
theorem wrap_range (c : Code) (n : Int) : c.lo ≤ c.wrap n ∧ c.wrap n ≤ c.lo + 2 ^ (8 * c.size) - 1 := by
  unfold Code.wrap
  have h0 : (0 : Int) < 2 ^ (8 * c.size) := Int.pow_pos (by decide)
  have h1 := Int.emod_nonneg (n - c.lo) (Int.ne_of_gt h0)
  have h2 := Int.emod_lt_of_pos (n - c.lo) h0
  omega

theorem hi_eq (c : Code) : c.hi = c.lo + 2 ^ (8 * c.size) - 1 := by
  cases c <;> decide

theorem wrap_in (c : Code) (n : Int) : c.lo ≤ c.wrap n ∧ c.wrap n ≤ c.hi := by
  rw [hi_eq]; exact wrap_range c n

/-- Conversion does not change representable values. -/
theorem wrap_id {c : Code} {n : Int} (h : c.lo ≤ n ∧ n ≤ c.hi) : c.wrap n = n := by
  rw [hi_eq] at h
  unfold Code.wrap
  rw [Int.emod_eq_of_lt (by omega) (by omega)]
  omega

/-- Conversion is reduction modulo `2^bits`. -/
theorem wrap_mod (c : Code) (n : Int) : (c.wrap n) % 2 ^ (8 * c.size) = n % 2 ^ (8 * c.size) := by
  unfold Code.wrap
  rw [Int.emod_add_emod]
  congr 1
  omega

theorem wrap_congr {c : Code} {a b : Int} (h : a % 2 ^ (8 * c.size) = b % 2 ^ (8 * c.size)) :
    c.wrap a = c.wrap b := by
  unfold Code.wrap
  rw [Int.sub_emod, h, ← Int.sub_emod]

theorem dec_enc_int (c : Code) (n : Int) (h : c.lo ≤ n ∧ n ≤ c.hi) :
    c.wrap (fromLE (leBytes c.size (n % 2 ^ (8 * c.size)).toNat)) = n := by
  have h0 : (0 : Int) < 2 ^ (8 * c.size) := Int.pow_pos (by decide)
  rw [fromLE_leBytes, pow256]
  have e : (((n % 2 ^ (8 * c.size)).toNat % 2 ^ (8 * c.size) : Nat) : Int) = n % 2 ^ (8 * c.size) := by
    rw [Int.natCast_emod, Int.toNat_of_nonneg (Int.emod_nonneg _ (Int.ne_of_gt h0))]
    simp
  rw [e]
  conv => rhs; rw [← wrap_id h]
  exact wrap_congr (by simp)

theorem decVal_encVal {c : Code} {v : Val} (h : v.WT c) : decVal c (encVal c v) = v := by
  cases c <;> cases v <;> simp only [Val.WT] at h
  case f32.f32 b =>
    simp only [decVal, encVal, fromLE_leBytes, Code.size]
    congr 1
    apply BitVec.eq_of_toNat_eq
    have := b.isLt
    simp only [BitVec.toNat_ofNat]; omega
  case f64.f64 b =>
    simp only [decVal, encVal, fromLE_leBytes, Code.size]
    congr 1
    apply BitVec.eq_of_toNat_eq
    have := b.isLt
    simp only [BitVec.toNat_ofNat]; omega
  all_goals exact congrArg Val.int (dec_enc_int _ _ h)

theorem decVal_WT (c : Code) (bs : List UInt8) : (decVal c bs).WT c := by
  cases c <;> simp only [decVal, Val.WT] <;> exact wrap_in _ _

theorem encVal_decVal (c : Code) (bs : List UInt8) (h : bs.length = c.size) :
    encVal c (decVal c bs) = bs := by
  have hlt := fromLE_lt bs
  have hle := leBytes_fromLE bs
  rw [h] at hlt hle
  have key : ∀ c : Code, bs.length = c.size →
      leBytes c.size (c.wrap (fromLE bs) % 2 ^ (8 * c.size)).toNat = bs := by
    intro c h
    have hlt := fromLE_lt bs
    have hle := leBytes_fromLE bs
    rw [h] at hlt hle
    rw [wrap_mod]
    have : ((fromLE bs : Int) % 2 ^ (8 * c.size)).toNat = fromLE bs := by
      have hc : ((2 : Int) ^ (8 * c.size)) = ((2 ^ (8 * c.size) : Nat) : Int) := by simp
      rw [hc, ← Int.natCast_emod, Int.toNat_natCast, Nat.mod_eq_of_lt]
      rw [← pow256]; exact hlt
    rw [this, hle]
  cases c
  case f32 =>
    simp only [decVal, encVal, BitVec.toNat_ofNat]
    rw [Nat.mod_eq_of_lt (by simpa [Code.size] using hlt)]; exact hle
  case f64 =>
    simp only [decVal, encVal, BitVec.toNat_ofNat]
    rw [Nat.mod_eq_of_lt (by simpa [Code.size] using hlt)]; exact hle
  all_goals exact key _ h

theorem allInit_map (l : List UInt8) : allInit (l.map some) = some l := by
  induction l with
  | nil => rfl
  | cons b bs ih => simp [allInit, ih]

/-! ### Arrays of encoded values -/

/-- Bytes of a cell that may be uninitialised. -/
def cellBytes (c : Code) : Option Val → List Byte
  | none => List.replicate c.size none
  | some v => (encVal c v).map some

/-- Bytes of an array of cells. -/
def encOpt (c : Code) (os : List (Option Val)) : List Byte := os.flatMap (cellBytes c)

theorem cellBytes_length (c : Code) (o : Option Val) : (cellBytes c o).length = c.size := by
  cases o <;> simp [cellBytes, encVal_length]

theorem encAll_eq (c : Code) (xs : List Val) : encAll c xs = encOpt c (xs.map some) := by
  simp [encAll, encOpt, List.flatMap_map, cellBytes]

theorem encOpt_replicate (c : Code) (n : Nat) :
    encOpt c (List.replicate n none) = List.replicate (n * c.size) none := by
  induction n with
  | zero => simp [encOpt]
  | succ n ih =>
    have : encOpt c (List.replicate (n + 1) none) =
        List.replicate c.size none ++ encOpt c (List.replicate n none) := by
      simp [encOpt, List.replicate_succ, cellBytes]
    rw [this, ih, Nat.succ_mul, Nat.add_comm, List.replicate_append_replicate]

theorem encOpt_cons (c : Code) (o : Option Val) (os) :
    encOpt c (o :: os) = cellBytes c o ++ encOpt c os := by simp [encOpt]

theorem encOpt_append (c : Code) (a b : List (Option Val)) :
    encOpt c (a ++ b) = encOpt c a ++ encOpt c b := by simp [encOpt]

theorem encOpt_length (c : Code) (os : List (Option Val)) :
    (encOpt c os).length = os.length * c.size := by
  induction os with
  | nil => simp [encOpt]
  | cons x xs ih => simp [encOpt_cons, ih, cellBytes_length, Nat.succ_mul, Nat.add_comm]

@[simp] theorem encAll_nil (c : Code) : encAll c [] = [] := (rfl)

theorem encAll_cons (c : Code) (x : Val) (xs : List Val) :
    encAll c (x :: xs) = (encVal c x).map some ++ encAll c xs := by simp [encAll]

theorem encAll_append (c : Code) (xs ys : List Val) :
    encAll c (xs ++ ys) = encAll c xs ++ encAll c ys := by simp [encAll]

theorem encAll_length (c : Code) (xs : List Val) : (encAll c xs).length = xs.length * c.size := by
  rw [encAll_eq, encOpt_length, List.length_map]

theorem mul_succ_le {i n k : Nat} (h : i < n) : i * k + k ≤ n * k := by
  rw [← Nat.succ_mul]; exact Nat.mul_le_mul_right _ h

theorem encOpt_split {c : Code} {os : List (Option Val)} {i : Nat} (hi : i < os.length) :
    encOpt c os = encOpt c (os.take i) ++ (cellBytes c os[i] ++ encOpt c (os.drop (i + 1))) := by
  conv => lhs; rw [← List.take_append_drop i os, List.drop_eq_getElem_cons hi, encOpt_append, encOpt_cons]

theorem encOpt_take_length {c : Code} {os : List (Option Val)} {i : Nat} (hi : i ≤ os.length) :
    (encOpt c (os.take i)).length = i * c.size := by
  rw [encOpt_length, List.length_take, Nat.min_eq_left hi]

/-- Reading a cell of an array. -/
theorem rdElem_cell {c : Code} {os : List (Option Val)} {i : Nat} (hi : i < os.length) :
    rdElem c (encOpt c os) i = match os[i] with
      | some v => .ok (decVal c (encVal c v))
      | none => .error .uninit := by
  unfold rdElem
  have hl : ((i : Int) + 1) * c.size ≤ ((encOpt c os).length : Int) := by
    have := mul_succ_le (k := c.size) hi
    rw [Int.add_mul, Int.one_mul, ← Int.natCast_mul, encOpt_length]; omega
  rw [if_pos ⟨by omega, hl⟩, Int.toNat_natCast]
  rw [encOpt_split hi, List.drop_left' (encOpt_take_length (by omega)),
    List.take_left' (cellBytes_length _ _)]
  cases hc : os[i] with
  | some v => simp only [cellBytes, allInit_map]
  | none =>
    obtain ⟨k, hk⟩ : ∃ k, c.size = k + 1 := ⟨c.size - 1, by have := c.size_pos; omega⟩
    simp [cellBytes, hk, List.replicate_succ, allInit]

theorem rdElem_some {c : Code} {os : List (Option Val)} {i : Nat} {v : Val}
    (h : os[i]? = some (some v)) (wt : v.WT c) : rdElem c (encOpt c os) i = .ok v := by
  obtain ⟨hi, hv⟩ := List.getElem?_eq_some_iff.mp h
  rw [rdElem_cell hi, hv]
  simp only [decVal_encVal wt]

theorem rdElem_none {c : Code} {os : List (Option Val)} {i : Nat}
    (h : os[i]? = some none) : rdElem c (encOpt c os) i = .error .uninit := by
  obtain ⟨hi, hv⟩ := List.getElem?_eq_some_iff.mp h
  rw [rdElem_cell hi, hv]

theorem rdElem_oob {c : Code} {bs : List Byte} {i : Nat} (h : bs.length < (i + 1) * c.size) :
    rdElem c bs i = .error .outOfBounds := by
  unfold rdElem
  rw [if_neg]
  rintro ⟨_, h2⟩
  have : (((i + 1) * c.size : Nat) : Int) = ((i : Int) + 1) * c.size := by simp
  omega

/-- Writing a cell of an array. -/
theorem wrElem_cell {c : Code} {os : List (Option Val)} {i : Nat} (hi : i < os.length) (v : Val) :
    wrElem c (encOpt c os) i v = .ok (encOpt c (os.set i (some v))) := by
  unfold wrElem
  have hl : ((i : Int) + 1) * c.size ≤ ((encOpt c os).length : Int) := by
    have := mul_succ_le (k := c.size) hi
    rw [Int.add_mul, Int.one_mul, ← Int.natCast_mul, encOpt_length]; omega
  rw [if_pos ⟨by omega, hl⟩, Int.toNat_natCast]
  congr 1
  unfold splice
  have h1 := encOpt_take_length (c := c) (os := os) (i := i) (by omega)
  rw [List.set_eq_take_append_cons_drop, if_pos hi, encOpt_append, encOpt_cons]
  conv => lhs; rw [encOpt_split hi]
  rw [List.take_left' h1]
  rw [← List.append_assoc, List.drop_left' (by
    simp [h1, cellBytes_length, encVal_length])]
  simp [cellBytes]

/-! ### Loads and stores through tensors -/

theorem run_loadElem {m : Mem} {p : Nat} {k} {c : Code} {os : List (Option Val)} {E : Env}
    (h : m.blk p = some ⟨k, .bytes (encOpt c os)⟩) {i : Nat} {v : Val}
    (hv : os[i]? = some (some v)) (wt : v.WT c) :
    loadElem c (.blk p) i E m = .ok v m := by
  unfold loadElem
  msimp [run_derefB h, rdElem_some hv wt]

theorem run_loadElem_uninit {m : Mem} {p : Nat} {k} {c : Code} {os : List (Option Val)} {E : Env}
    (h : m.blk p = some ⟨k, .bytes (encOpt c os)⟩) {i : Nat} (hv : os[i]? = some none) :
    loadElem c (.blk p) i E m = .ub .uninit := by
  unfold loadElem
  msimp [run_derefB h, rdElem_none hv]

theorem run_storeElem {m : Mem} {p : Nat} {k} {c : Code} {os : List (Option Val)} {E : Env}
    (h : m.blk p = some ⟨k, .bytes (encOpt c os)⟩) {i : Nat} (hi : i < os.length) (v : Val) (hk : k ≠ .const := by simp) :
    storeElem c (.blk p) i v E m =
      .ok () (m.set p (some ⟨k, .bytes (encOpt c (os.set i (some v)))⟩)) := by
  unfold storeElem
  msimp [run_derefB h, wrElem_cell hi, run_putBody h _ _ hk]

/-- Load from a tensor with known elements. -/
theorem At.load {m : Mem} {R : Foot} {T : TV} {c : Code} {xs : List Val} {E : Env}
    (h : At m R T) (he : Elems T c xs) {i : Nat} (hi : i < xs.length) :
    loadElem c (.blk R.p) i E m = .ok xs[i] m := by
  refine run_loadElem (os := xs.map some) (k := .own) ?_ (by simp [hi]) (he.wt _ (List.getElem_mem hi))
  rw [← encAll_eq, ← he.bytes]; exact h.data

/-- Fill loop: iteration `i` stores `f i` at index `i` of an array. -/
theorem fillElems {E : Env} {m : Mem} {p : Nat} {k} {c : Code} {os : List (Option Val)}
    (h : m.blk p = some ⟨k, .bytes (encOpt c os)⟩) (g : Nat → Unit → M Unit) (f : Nat → Val)
    (hg : ∀ i bs, i < os.length → g i () E (m.set p (some ⟨k, .bytes bs⟩)) =
      storeElem c (.blk p) i (f i) E (m.set p (some ⟨k, .bytes bs⟩))) (hk : k ≠ .const := by simp) :
    loopN g os.length 0 () E m =
      .ok () (m.set p (some ⟨k, .bytes (encAll c ((List.range os.length).map f))⟩)) := by
  have := loopN_fn (E := E) g (fun _ => ())
    (fun i => m.set p (some ⟨k, .bytes (encOpt c ((List.range i).map (fun i => some (f i)) ++ os.drop i))⟩))
    os.length (by
      intro i hi
      rw [hg i _ hi, run_storeElem (Mem.set_blk_same _ _ _) (by simp; omega) (hk := hk)]
      simp only [Mem.set_set]
      rw [set_fill (fun i => some (f i)) os i hi])
  simp only [List.range_zero, List.map_nil, List.nil_append, List.drop_zero, List.drop_length,
    List.append_nil] at this
  rw [Mem.set_self _ _ _ h] at this
  rw [encAll_eq, List.map_map]
  exact this

end Aitisa
