import Verif.Proof.IeeeFma
import Verif.Spec.Calc
import Verif.Spec.Range
import Verif.Spec.Casts
import Verif.Spec.BatchNorm
import Verif.Spec.Pooling

/-!
# Sums of products on any machine with IEEE arithmetic

If a product is exact it does not matter whether it is rounded before it is added.
-/

namespace Aitisa

variable {F : Fmt}

theorem isInt_rat (h : F.OK) {b : Nat} {n : Int} (hb : F.IsInt b n) : F.rat b = some (n : Rat) := by
  rw [rat_units h, hb, h.emin]
  simp only [Option.map_some, Option.some.injEq, Int.neg_neg, Int.toNat_natCast]
  have := low_pos F
  rw [Rat.intCast_mul]
  have e : ((2 ^ F.low : Int) : Rat) = ((2 ^ F.low : Nat) : Rat) := by norm_cast
  rw [e, Rat.mul_div_cancel (by grind)]

/-- The product of two numbers, as bits, is exact. -/
def Fmt.ExactMul (F : Fmt) (a b : Nat) : Prop := ∃ x y, F.rat a = some x ∧ F.rat b = some y ∧ F.rat (F.mul a b) = some (x * y)

/-- The product of two elements is exact (for integers, where nothing is rounded, this says nothing). -/
def ExactProd : Val → Val → Prop
  | .f32 a, .f32 b => b32.ExactMul a.toNat b.toNat
  | .f64 a, .f64 b => b64.ExactMul a.toNat b.toNat
  | _, _ => True

variable {fp : FloatOps} {c : Code}

theorem mac_same (h : Machine fp) {z x y w : Val} (he : ExactProd x y) (hm : MacResult ieee c z x y w) : MacResult fp c z x y w := by
  cases z <;> cases x <;> cases y <;> first | exact hm | skip
  · next z a b =>
    obtain ⟨x, y, hx, hy, hxy⟩ := he
    have e : fused.mac32 z a b = ieee.mac32 z a b := by
      show BitVec.ofNat 32 (b32.fma _ _ _) = BitVec.ofNat 32 (b32.add _ (BitVec.ofNat 32 (b32.mul _ _)).toNat)
      rw [of32 (mul_lt b32_ok _ _), fma_exact b32_ok (bits32 _) (bits32 _) (bits32 _) hx hy hxy]
    rcases h.mac32 z a b with g | g <;> simp only [MacResult, g, e] at hm ⊢ <;> exact hm
  · next z a b =>
    obtain ⟨x, y, hx, hy, hxy⟩ := he
    have e : fused.mac64 z a b = ieee.mac64 z a b := by
      show BitVec.ofNat 64 (b64.fma _ _ _) = BitVec.ofNat 64 (b64.add _ (BitVec.ofNat 64 (b64.mul _ _)).toNat)
      rw [of64 (mul_lt b64_ok _ _), fma_exact b64_ok (bits64 _) (bits64 _) (bits64 _) hx hy hxy]
    rcases h.mac64 z a b with g | g <;> simp only [MacResult, g, e] at hm ⊢ <;> exact hm

theorem dot_same (h : Machine fp) : ∀ {l : List (Val × Val)} {z w : Val}, (∀ p ∈ l, ExactProd p.1 p.2) → DotTo ieee c z l w → DotTo fp c z l w
  | [], _, _, _, hd => hd
  | (x, y) :: l, _, _, he, ⟨v, hv, hd⟩ => ⟨v, mac_same h (he _ (List.mem_cons_self ..)) hv, dot_same h (fun p hp => he p (List.mem_cons_of_mem _ hp)) hd⟩

theorem exactProd_ints {x y : Val} {a b : Int} (hx : x.WT c) (hy : y.WT c) (ha : Stands x a) (hb : Stands y b) (hw : Within c (a * b)) : ExactProd x y := by
  cases x <;> cases y <;> first | trivial | skip
  · cases c <;> simp only [Val.WT] at hx
    rw [within32] at hw
    refine ⟨_, _, isInt_rat b32_ok ha, isInt_rat b32_ok hb, ?_⟩
    rw [isInt_rat b32_ok (mul_int b32_ok ha hb hw), Rat.intCast_mul]
  · cases c <;> simp only [Val.WT] at hx
    rw [within64] at hw
    refine ⟨_, _, isInt_rat b64_ok ha, isInt_rat b64_ok hb, ?_⟩
    rw [isInt_rat b64_ok (mul_int b64_ok ha hb hw), Rat.intCast_mul]

theorem exactMul_comm {a b : Nat} (h : F.ExactMul a b) : F.ExactMul b a := by
  obtain ⟨x, y, hx, hy, hxy⟩ := h
  exact ⟨y, x, hy, hx, by rw [Aitisa.mul_comm, hxy, Rat.mul_comm]⟩

theorem exactProd_comm {x y : Val} (h : ExactProd x y) : ExactProd y x := by
  cases x <;> cases y <;> first | trivial | exact exactMul_comm h

/-- A product that adds up with 0 to a whole number. -/
theorem within_products {s : Int} : ∀ {l : List (Int × Int)}, SumsWithin c s l → ∀ p ∈ l, Within c (p.1 * p.2) := by
  intro l
  induction l generalizing s with
  | nil => intro _ p hp; cases hp
  | cons q l ih =>
    intro h p hp
    rcases List.mem_cons.1 hp with rfl | hp
    · exact h.1
    · exact ih h.2.2 p hp

/-- The sum of products of whole numbers is exact. -/
theorem dot_whole (h : Machine fp) {l : List ((Val × Val) × (Int × Int))} {z : Val} {s : Int} (hz : z.WT c) (hs : Stands z s)
    (hwt : ∀ p ∈ l, p.1.1.WT c ∧ p.1.2.WT c ∧ Stands p.1.1 p.2.1 ∧ Stands p.1.2 p.2.2) (hsum : SumsWithin c s (l.map Prod.snd)) :
    ∃ w, DotTo fp c z (l.map Prod.fst) w ∧ Stands w (s + total (l.map Prod.snd)) := by
  obtain ⟨w, hw, hst⟩ := dot_exact hz hs hwt hsum
  refine ⟨w, dot_same h (fun p hp => ?_) hw, hst⟩
  obtain ⟨q, hq, rfl⟩ := List.mem_map.1 hp
  obtain ⟨h1, h2, h3, h4⟩ := hwt q hq
  exact exactProd_ints h1 h2 h3 h4 (within_products hsum _ (List.mem_map_of_mem hq))

/-! ## Nothing else differs -/

theorem Machine.converts (h : Machine fp) : Converts fp = Converts ieee := by
  rw [h.rest]; funext c v w; cases c <;> rfl

theorem Machine.op (h : Machine fp) : OpResult fp = OpResult ieee := by
  rw [h.rest]; funext c op x y z; cases x <;> cases y <;> cases op <;> rfl

theorem Machine.clamped (h : Machine fp) : ClampedAtZero fp = ClampedAtZero ieee := by
  rw [h.rest]; funext x y; cases x <;> rfl

theorem Machine.negative (h : Machine fp) : Negative fp = Negative ieee := by
  rw [h.rest]; funext x; cases x <;> rfl

theorem Machine.commutes (h : Machine fp) : Commutes fp = Commutes ieee := by
  rw [h.rest]; funext c op; cases c <;> cases op <;> rfl

theorem Machine.add64 (h : Machine fp) : fp.add64 = ieee.add64 := by rw [h.rest]
theorem Machine.div64 (h : Machine fp) : fp.div64 = ieee.div64 := by rw [h.rest]
theorem Machine.lt64 (h : Machine fp) : fp.lt64 = ieee.lt64 := by rw [h.rest]
theorem Machine.sqrt64 (h : Machine fp) : fp.sqrt64 = ieee.sqrt64 := by rw [h.rest]
theorem Machine.ofInt64 (h : Machine fp) : fp.ofInt64 = ieee.ofInt64 := by rw [h.rest]
theorem Machine.mul64 (h : Machine fp) : fp.mul64 = ieee.mul64 := by rw [h.rest]
theorem Machine.trunc64 (h : Machine fp) : fp.trunc64 = ieee.trunc64 := by rw [h.rest]

theorem Machine.zeroOf (h : Machine fp) : ZeroOf fp = ZeroOf ieee := by
  funext c z; unfold ZeroOf; rw [h.converts, h.ofInt64]

theorem Machine.through (h : Machine fp) : ThroughDouble fp = ThroughDouble ieee := by
  funext c s v; unfold ThroughDouble; rw [h.converts]

theorem Machine.root (h : Machine fp) : RootOf fp = RootOf ieee := by
  funext c x y; unfold RootOf; rw [h.converts, h.sqrt64]

theorem Machine.sums (h : Machine fp) : SumsTo fp = SumsTo ieee := by
  funext s l; induction l generalizing s with
  | nil => rfl
  | cons x l ih => funext d; simp only [SumsTo, h.converts, h.add64, ih]

theorem Machine.avg (h : Machine fp) : AvgOf fp = AvgOf ieee := by
  funext c n es y; unfold AvgOf; rw [h.converts, h.sums, h.ofInt64, h.div64]

theorem Machine.scans (h : Machine fp) : ScansTo fp = ScansTo ieee := by
  funext s l; induction l generalizing s with
  | nil => rfl
  | cons x l ih => funext d; simp only [ScansTo, h.converts, h.lt64, ih]

theorem Machine.scan (h : Machine fp) : ScanOf fp = ScanOf ieee := by
  funext c es y; unfold ScanOf; rw [h.converts, h.scans, h.ofInt64]

theorem Machine.max (h : Machine fp) : MaxOf fp = MaxOf ieee := by
  funext es y; unfold MaxOf; rw [h.converts, h.lt64]

theorem Machine.casts (h : Machine fp) : ThroughCasts fp = ThroughCasts ieee := by
  funext l; induction l with
  | nil => rfl
  | cons c l ih => funext x y; simp only [ThroughCasts, h.converts, ih]

theorem Machine.value (h : Machine fp) : Calc.Value fp = Calc.Value ieee := by
  funext c x a; induction a with
  | arg i => rfl
  | lit v => funext y; simp only [Calc.Value, h.converts]
  | bin op a b iha ihb => funext y; simp only [Calc.Value, h.op, iha, ihb]

theorem Machine.norm (h : Machine fp) : NormTo fp = NormTo ieee := by
  funext c e s b m v x r; unfold NormTo; rw [h.converts, h.op, h.negative, h.root]

theorem Machine.zero (h : Machine fp) (c : Code) : ZeroOf fp c (zeroVal c) := by rw [h.zeroOf]; exact zeroVal_of c

theorem Machine.zero' (h : Machine fp) (c : Code) : Converts fp c (.int 0) (zeroVal c) := by rw [h.converts]; exact zeroVal_conv c

theorem Machine.sigmoid (h : Machine fp) : SigmoidOf fp = SigmoidOf (withExp fp.exp64) := by
  conv => lhs; rw [h.rest]
  funext x y; cases x <;> rfl

theorem Machine.tanh (h : Machine fp) : TanhOf fp = TanhOf (withExp fp.exp64) := by
  conv => lhs; rw [h.rest]
  funext x y; cases x <;> rfl

theorem machine_withExp (ex : BitVec 64 → BitVec 64) : Machine (withExp ex) := ⟨rfl, fun _ _ _ => .inl rfl, fun _ _ _ => .inl rfl⟩

theorem Machine.expOf (h : Machine fp) : ExpOf fp = ExpOf (withExp fp.exp64) := by
  funext c x e; unfold ExpOf; rw [h.converts, (machine_withExp fp.exp64).converts]; rfl

theorem Machine.share (h : Machine fp) : ShareOf fp = ShareOf (withExp fp.exp64) := by
  have g := machine_withExp fp.exp64
  funext c l e y; unfold ShareOf; rw [h.converts, g.converts, h.sums, g.sums, h.ofInt64, g.ofInt64, h.div64, g.div64]

/-- Rewrite everything but sums of products as on the machine `ieee`. -/
macro "on_machine" h:ident l:(Lean.Parser.Tactic.location)? : tactic => `(tactic| simp only [Machine.converts $h, Machine.op $h, Machine.commutes $h, Machine.clamped $h, Machine.negative $h, Machine.zeroOf $h, Machine.through $h, Machine.root $h, Machine.sums $h, Machine.avg $h, Machine.scans $h, Machine.scan $h, Machine.max $h, Machine.casts $h, Machine.value $h, Machine.norm $h, Machine.add64 $h, Machine.div64 $h, Machine.lt64 $h, Machine.sqrt64 $h, Machine.ofInt64 $h, Machine.mul64 $h, Machine.trunc64 $h] $[$l]?)

end Aitisa
