import Verif.Proofs.Cash
import Verif.Proofs.Demo
/-! # C57: solvency with fees -/
namespace Uni
namespace Props
open U256 Spec TickData TickMath FullMath _root_.Uni.Pool

theorem claim_pot0 (p : Pool) (rs : List (Int × Int)) : (rs.map (claim0 p)).sum * 2 ^ 128 ≤ (rs.map (pot true p)).sum := by
  induction rs with
  | nil => exact Nat.le_of_eq (Nat.zero_mul _)
  | cons r rs ih =>
    rw [List.map_cons, List.map_cons, List.sum_cons, List.sum_cons, Nat.add_mul]
    refine Nat.add_le_add ?_ ih
    unfold claim0
    rw [Nat.add_mul]
    exact Nat.add_le_add_left (Nat.div_mul_le_self _ _) _

theorem claim_pot1 (p : Pool) (rs : List (Int × Int)) : (rs.map (claim1 p)).sum * 2 ^ 128 ≤ (rs.map (pot false p)).sum := by
  induction rs with
  | nil => exact Nat.le_of_eq (Nat.zero_mul _)
  | cons r rs ih =>
    rw [List.map_cons, List.map_cons, List.sum_cons, List.sum_cons, Nat.add_mul]
    refine Nat.add_le_add ?_ ih
    unfold claim1
    rw [Nat.add_mul]
    exact Nat.add_le_add_left (Nat.div_mul_le_self _ _) _

theorem new_positions {a b : String} {fee : Int} {price : U256} {p0 : Pool} (hn : Pool.new a b fee price = .ok p0) :
    p0.positions = fun _ => none := by
  unfold Pool.new at hn
  obtain ⟨_, _, hn⟩ := bind_ok hn
  obtain ⟨_, _, hn⟩ := bind_ok hn
  cases hn
  rfl

/-- C57: after any such history the cash covers the principal of all positions, everything that is owed and all fees that
are not credited yet, for both tokens. -/
theorem C57_covered (a b : String) (fee : Int) (price : U256) (p0 : Pool) (hf : fee = 500 ∨ fee = 3000 ∨ fee = 10000)
    (hn : Pool.new a b fee price = .ok p0) (rs : List (Int × Int)) (ho : OwnRecords rs) (h : List Entry) (p : Pool) (b0 b1 : Int)
    (hb : Cash rs p0 h p b0 b1) :
    principal0 h p.price.toNat + ((rs.map (claim0 p)).sum : Nat) ≤ b0 ∧
    principal1 h p.price.toNat + ((rs.map (claim1 p)).sum : Nat) ≤ b1 := by
  obtain ⟨_, _, h3⟩ := cash_inv ho (new_inv hf hn).1 (new_positions hn) hb
  have hq : (0 : ℚ) < 2 ^ 128 := by norm_num
  constructor
  · have e : (((rs.map (claim0 p)).sum : Nat) : ℚ) * 2 ^ 128 ≤ ((rs.map (pot true p)).sum : Nat) := by exact_mod_cast claim_pot0 p rs
    have h4 : principal0 h p.price.toNat * 2 ^ 128 + ((rs.map (pot true p)).sum : Nat) ≤ (b0 : ℚ) * 2 ^ 128 := h3 true
    refine le_of_mul_le_mul_right ?_ hq
    rw [add_mul]
    linarith
  · have e : (((rs.map (claim1 p)).sum : Nat) : ℚ) * 2 ^ 128 ≤ ((rs.map (pot false p)).sum : Nat) := by exact_mod_cast claim_pot1 p rs
    have h4 : principal1 h p.price.toNat * 2 ^ 128 + ((rs.map (pot false p)).sum : Nat) ≤ (b1 : ℚ) * 2 ^ 128 := h3 false
    refine le_of_mul_le_mul_right ?_ hq
    rw [add_mul]
    linarith

/-- C57: the cash never becomes negative: whatever was paid out had been paid in. -/
theorem C57_never_negative (a b : String) (fee : Int) (price : U256) (p0 : Pool) (hf : fee = 500 ∨ fee = 3000 ∨ fee = 10000)
    (hn : Pool.new a b fee price = .ok p0) (rs : List (Int × Int)) (ho : OwnRecords rs) (h : List Entry) (p : Pool) (b0 b1 : Int)
    (hb : Cash rs p0 h p b0 b1) : 0 ≤ b0 ∧ 0 ≤ b1 := by
  obtain ⟨hi, _, _⟩ := cash_inv ho (new_inv hf hn).1 (new_positions hn) hb
  obtain ⟨e0, e1⟩ := C57_covered a b fee price p0 hf hn rs ho h p b0 b1 hb
  have n0 : 0 ≤ principal0 h p.price.toNat := wsum_nonneg hi.cov.nonneg (fun _ _ _ => holding_nonneg.1)
  have n1 : 0 ≤ principal1 h p.price.toNat := wsum_nonneg hi.cov.nonneg (fun _ _ _ => holding_nonneg.2)
  have m0 : (0 : ℚ) ≤ ((rs.map (claim0 p)).sum : Nat) := Nat.cast_nonneg _
  have m1 : (0 : ℚ) ≤ ((rs.map (claim1 p)).sum : Nat) := Nat.cast_nonneg _
  exact ⟨by exact_mod_cast (add_nonneg n0 m0).trans e0, by exact_mod_cast (add_nonneg n1 m1).trans e1⟩

/-- C57: what a collect of one of the ranges reports is there. -/
theorem C57_payable (a b : String) (fee : Int) (price : U256) (p0 : Pool) (hf : fee = 500 ∨ fee = 3000 ∨ fee = 10000)
    (hn : Pool.new a b fee price = .ok p0) (rs : List (Int × Int)) (ho : OwnRecords rs) (h : List Entry) (p : Pool) (b0 b1 : Int)
    (hb : Cash rs p0 h p b0 b1) (l u : Int) (hr : (l, u) ∈ rs) (r0 r1 : U256) (p' : Pool)
    (hx : p.collectStrategy l u = .ok (r0, r1, p')) : (r0.toNat : Int) ≤ b0 ∧ (r1.toNat : Int) ≤ b1 := by
  have hx' : PoolOp.exec 0 p (.collectStrategy l u) = .ok p' := by
    show (do let r ← p.collectStrategy l u; return r.2.2) = _
    rw [hx]; rfl
  have h1 := C57_never_negative a b fee price p0 hf hn rs ho _ _ _ _
    (Cash.step 0 (.collectStrategy l u) hb trivial trivial hr hx')
  have e : PoolOp.cash 0 p (.collectStrategy l u) = (-(r0.toNat : Int), -(r1.toNat : Int)) := by simp only [PoolOp.cash, hx]
  rw [e] at h1
  dsimp only at h1
  omega

/-! ### A concrete history -/
namespace CashDemo

def op5 : PoolOp := .flash (ofNat 100000) (ofNat 5000000)
theorem ok5 : isOk (PoolOp.exec 10 Demo.p3 op5) = true := by decide +kernel
def p5 : Pool := getOk _ ok5
def op6 : PoolOp := .burnStrategy (-120) 180 (ofNat 400000)
theorem ok6 : isOk (PoolOp.exec 10 p5 op6) = true := by decide +kernel
def p6 : Pool := getOk _ ok6
def op7 : PoolOp := .collectStrategy (-120) 180
theorem ok7 : isOk (PoolOp.exec 10 p6 op7) = true := by decide +kernel
def p7 : Pool := getOk _ ok7

theorem own : OwnRecords [(-120, 180)] := by
  refine ⟨by decide, ?_⟩
  intro r h r' h' _
  rw [List.mem_singleton.1 h, List.mem_singleton.1 h']

/-- Two mints, a swap that crosses a tick, a flash loan, a burn of 400000 of the 1000000 units and a collect.  -/
theorem history : ∃ h b0 b1, Cash [(-120, 180)] Demo.p0 h p7 b0 b1 ∧ b1 = 19711 := by
  have k1 := Cash.step (rs := [(-120, 180)]) 10 Demo.op1 .start Demo.a1 trivial (List.mem_singleton.2 rfl)
    (demo_mintStrategy (p := Demo.p0) (q := Demo.p1) (i := ⟨ofNat 1000000, zero, zero, zero, zero⟩) (by decide +kernel) (by decide +kernel) rfl)
  have k2 := Cash.step 10 Demo.op2 k1 Demo.a2 trivial trivial (demo_mint (q := Demo.p2) (by decide +kernel) rfl)
  have k3 := Cash.step 10 Demo.op3 k2 Demo.a3 (fun h => absurd h (by decide +kernel)) trivial (demo_swap (q := Demo.p3) (by decide +kernel) rfl)
  have k5 := Cash.step 10 op5 k3 trivial trivial trivial (eq_getOk _ ok5)
  have k6 := Cash.step 10 op6 k5 (show ((ofNat 400000).toNat : Int) ≤ outstanding _ _ _ by decide +kernel) trivial
    ⟨List.mem_singleton.2 rfl, by decide +kernel⟩ (eq_getOk _ ok6)
  have k7 := Cash.step 10 op7 k6 trivial trivial (List.mem_singleton.2 rfl) (eq_getOk _ ok7)
  exact ⟨_, _, _, k7, by decide +kernel⟩

/-! The counterexample: a pool at tick -91. -/

theorem okn : isOk (Pool.new "WETH" "USDC" 3000 (ofNat 78872000000000000000000000000)) = true := by decide +kernel
def c0 : Pool := getOk _ okn
def m1 : PoolOp := .mintStrategy (-120) (-60) (ofNat 1000000)
theorem okm1 : isOk (PoolOp.exec 10 c0 m1) = true := by decide +kernel
def c1 : Pool := getOk _ okm1
def m2 : PoolOp := .mintStrategy (-240) (-180) (ofNat 1000000)
theorem okm2 : isOk (PoolOp.exec 10 c1 m2) = true := by decide +kernel
def c2 : Pool := getOk _ okm2
def m3 : PoolOp := .flash zero (ofNat 1000000000)
theorem okm3 : isOk (PoolOp.exec 10 c2 m3) = true := by decide +kernel
def c3 : Pool := getOk _ okm3
def m4 : PoolOp := .burnStrategy (-120) (-60) zero
theorem okm4 : isOk (PoolOp.exec 10 c3 m4) = true := by decide +kernel
def c4 : Pool := getOk _ okm4
def m5 : PoolOp := .collectStrategy (-120) (-60)
theorem okm5 : isOk (PoolOp.exec 10 c4 m5) = true := by decide +kernel
def c5 : Pool := getOk _ okm5

end CashDemo

/-- The hypotheses of C57 are met by a history in which fees are earned and collected. -/
example : ∃ h p b0 b1, OwnRecords [(-120, 180)] ∧ Cash [(-120, 180)] Demo.p0 h p b0 b1 ∧ b1 = 19711 :=
  let ⟨h, b0, b1, k⟩ := CashDemo.history
  ⟨h, CashDemo.p7, b0, b1, CashDemo.own, k⟩

/-- C57 is false for ranges that share a record (C31): two positions of 1000000 units each on negative ticks, one flash loan
of 10^9 token1 (fee 3000000); the owner of the first range collects the fees twice, 6000000 token1, and the pool has paid
out 2990000 token1 more than it got. -/
theorem C57_collision : ∃ (p0 : Pool) (h : List Entry) (p : Pool) (b0 b1 : Int),
    Pool.new "WETH" "USDC" 3000 (ofNat 78872000000000000000000000000) = .ok p0 ∧
    Cash [(-120, -60), (-240, -180)] p0 h p b0 b1 ∧ b1 < -2990000 := by
  have k1 := Cash.step (rs := [(-120, -60), (-240, -180)]) 10 CashDemo.m1 (.start (p0 := CashDemo.c0))
    (show total [] + ((ofNat 1000000).toNat : Int) < 2 ^ 128 by decide +kernel) trivial (show (-120, -60) ∈ _ by decide)
    (eq_getOk _ CashDemo.okm1)
  have k2 := Cash.step 10 CashDemo.m2 k1
    (show total [⟨-120, -60, ((ofNat 1000000).toNat : Int)⟩] + ((ofNat 1000000).toNat : Int) < 2 ^ 128 by decide +kernel) trivial
    (show (-240, -180) ∈ _ by decide) (eq_getOk _ CashDemo.okm2)
  have k3 := Cash.step 10 CashDemo.m3 k2 trivial trivial trivial (eq_getOk _ CashDemo.okm3)
  have k4 := Cash.step 10 CashDemo.m4 k3 (show ((zero : U256).toNat : Int) ≤ outstanding _ _ _ by decide +kernel) trivial
    ⟨show (-120, -60) ∈ _ by decide, by decide +kernel⟩ (eq_getOk _ CashDemo.okm4)
  have k5 := Cash.step 10 CashDemo.m5 k4 trivial trivial (show (-120, -60) ∈ _ by decide) (eq_getOk _ CashDemo.okm5)
  exact ⟨_, _, _, _, _, eq_getOk _ CashDemo.okn, k5, by decide +kernel⟩

end Props
end Uni
