import Verif.Spec.Pool
import Verif.Proofs.Pool
/-! # A concrete pool, used to show that hypotheses can be met

Fee 3000, spacing 60, price `2^96` (tick 0); then a strategy mint on `[-120, 180)`, a plain mint on `[60, 240)` and a swap of
token1 that crosses tick 60. -/
namespace Uni
namespace Spec
open U256 Pool

/-- Did the call return? -/
def isOk {α : Type} : Go α → Bool
  | .ok _ => true
  | .error _ => false

/-- The result of a call that returned. -/
def getOk {α : Type} (x : Go α) (h : isOk x = true) : α :=
  match x, h with
  | .ok a, _ => a

theorem eq_getOk {α : Type} (x : Go α) (h : isOk x = true) : x = .ok (getOk x h) := by
  cases x with
  | ok a => rfl
  | error e => cases h

instance (p q : Pool) : Decidable (p.core = q.core) := 
  decidable_of_iff (p.token0 = q.token0 ∧ p.token1 = q.token1 ∧ p.fee = q.fee ∧ p.price = q.price ∧ p.liquidity = q.liquidity ∧
    p.growth0 = q.growth0 ∧ p.growth1 = q.growth1 ∧ p.spacing = q.spacing ∧ p.tick = q.tick ∧ p.ticks = q.ticks)
    (by unfold Pool.core; simp only [Prod.mk.injEq])

/-- The call returned a pool that agrees with `q` except for the position records. -/
def coreOk (x : Go Pool) (q : Pool) : Bool :=
  match x with
  | .ok p => decide (p.core = q.core)
  | .error _ => false

theorem coreOk_eq {x : Go Pool} {q : Pool} (h : coreOk x q = true) : ∃ p, x = .ok p ∧ p.core = q.core := by
  cases x with
  | ok p => exact ⟨p, rfl, of_decide_eq_true h⟩
  | error e => cases h

theorem demo_swap {fuel : Nat} {p q : Pool} {a l : U256} {t : String} (h : coreOk (PoolOp.exec fuel p (.exactInput a t l)) q = true)
    (hq : q.positions = p.positions) : PoolOp.exec fuel p (.exactInput a t l) = .ok q := by
  obtain ⟨p', h1, h2⟩ := coreOk_eq h
  rw [h1]
  obtain ⟨⟨r0, r1, q'⟩, h3, h4⟩ := bind_ok h1
  cases h4
  rw [ext_core h2 ((swap_pos h3).trans hq.symm)]

theorem demo_mint {fuel : Nat} {p q : Pool} {a : U256} {l u : Int} (h : coreOk (PoolOp.exec fuel p (.mint l u a)) q = true)
    (hq : q.positions = p.positions) : PoolOp.exec fuel p (.mint l u a) = .ok q := by
  obtain ⟨p', h1, h2⟩ := coreOk_eq h
  rw [h1]
  obtain ⟨_, _, h3⟩ := bind_ok h1
  rw [ext_core h2 ((modifyPosition_pos h3).trans hq.symm)]

/-- The call returned a pool whose record under `k` is `i`. -/
def posOk (x : Go Pool) (k : String) (i : Info) : Bool :=
  match x with
  | .ok p => decide (p.positions k = some i)
  | .error _ => false

theorem demo_mintStrategy {fuel : Nat} {p q : Pool} {a : U256} {l u : Int} {i : Info}
    (h : coreOk (PoolOp.exec fuel p (.mintStrategy l u a)) q = true)
    (hp : posOk (PoolOp.exec fuel p (.mintStrategy l u a)) (posKey l u) i = true)
    (hq : q.positions = setPos p.positions (posKey l u) i) : PoolOp.exec fuel p (.mintStrategy l u a) = .ok q := by
  obtain ⟨p', h1, h2⟩ := coreOk_eq h
  rw [h1]
  rw [h1] at hp
  have hp' := of_decide_eq_true hp
  obtain ⟨⟨r0, r1, q'⟩, h3, h4⟩ := bind_ok h1
  cases h4
  obtain ⟨pos, h5⟩ := mintStrategy_pos h3
  have h6 : pos = i := by
    dsimp only at hp'
    rw [h5] at hp'
    unfold setPos at hp'
    rw [if_pos rfl] at hp'
    exact Option.some.inj hp'
  rw [ext_core h2 (by rw [hq, ← h6]; exact h5)]

theorem demo_new {fee : Int} {price : U256} {q : Pool} {a b : String} (h : coreOk (Pool.new a b fee price) q = true)
    (hq : q.positions = fun _ => none) : Pool.new a b fee price = .ok q := by
  obtain ⟨p', h1, h2⟩ := coreOk_eq h
  rw [h1, ext_core h2]
  unfold Pool.new at h1
  obtain ⟨_, _, h1⟩ := bind_ok h1
  obtain ⟨_, _, h1⟩ := bind_ok h1
  cases h1
  exact hq.symm

namespace Demo

def op1 : PoolOp := .mintStrategy (-120) 180 (ofNat 1000000)
def op2 : PoolOp := .mint 60 240 (ofNat 2000000)
def op3 : PoolOp := .exactInput (ofNat 8000) "USDC" zero
def h1 : List Entry := [⟨-120, 180, 1000000⟩]
def h3 : List Entry := [⟨60, 240, 2000000⟩, ⟨-120, 180, 1000000⟩]

def p0 : Pool := ⟨"WETH", "USDC", 3000, ofNat 79228162514264337593543950336, zero, zero, zero, 60, 0,
  ⟨[], 60⟩, fun _ => none⟩
def p1 : Pool := ⟨"WETH", "USDC", 3000, ofNat 79228162514264337593543950336, ofNat 1000000, zero, zero, 60, 0,
  ⟨[⟨-120, ofNat 1000000, ofNat 1000000, zero, zero⟩,
    ⟨180, neg (ofNat 1000000), ofNat 1000000, zero, zero⟩], 60⟩, setPos (fun _ => none) (posKey (-120) 180) ⟨ofNat 1000000, zero, zero, zero, zero⟩⟩
def p2 : Pool := ⟨"WETH", "USDC", 3000, ofNat 79228162514264337593543950336, ofNat 1000000, zero, zero, 60, 0,
  ⟨[⟨-120, ofNat 1000000, ofNat 1000000, zero, zero⟩,
    ⟨60, ofNat 2000000, ofNat 2000000, zero, zero⟩,
    ⟨180, neg (ofNat 1000000), ofNat 1000000, zero, zero⟩,
    ⟨240, neg (ofNat 2000000), ofNat 2000000, zero, zero⟩], 60⟩, p1.positions⟩
def p3 : Pool := ⟨"WETH", "USDC", 3000, ofNat 79597446622096276448035079310, ofNat 3000000, zero, ofNat 5104235503814076951950619111476523, 60, 93,
  ⟨[⟨-120, ofNat 1000000, ofNat 1000000, zero, zero⟩,
    ⟨60, ofNat 2000000, ofNat 2000000, zero, ofNat 3402823669209384634633746074317682⟩,
    ⟨180, neg (ofNat 1000000), ofNat 1000000, zero, zero⟩,
    ⟨240, neg (ofNat 2000000), ofNat 2000000, zero, zero⟩], 60⟩, p1.positions⟩

theorem n0 : Pool.new "WETH" "USDC" 3000 (ofNat (2 ^ 96)) = .ok p0 := demo_new (by decide +kernel) rfl
theorem a1 {p : Pool} : op1.Admissible p [] := show total [] + ((ofNat 1000000).toNat : Int) < 2 ^ 128 by decide +kernel
theorem a2 {p : Pool} : op2.Admissible p h1 := show total h1 + ((ofNat 2000000).toNat : Int) < 2 ^ 128 by decide +kernel
theorem a3 : op3.Admissible p2 h3 := ⟨by decide +kernel, fun h => absurd h (by decide +kernel)⟩
theorem r0 : Reaches p0 [] p0 := .start
theorem r1 : Reaches p0 h1 p1 :=
  .step 10 op1 r0 a1 (demo_mintStrategy (i := ⟨ofNat 1000000, zero, zero, zero, zero⟩) (by decide +kernel) (by decide +kernel) rfl)
theorem r2 : Reaches p0 h3 p2 := .step 10 op2 r1 a2 (demo_mint (by decide +kernel) rfl)
theorem r3 : Reaches p0 h3 p3 := .step 10 op3 r2 a3 (demo_swap (by decide +kernel) rfl)

theorem reachable {h : List Entry} {p : Pool} (hr : Reaches p0 h p) : Reachable h p :=
  ⟨"WETH", "USDC", 3000, ofNat (2 ^ 96), p0, Or.inr (Or.inl rfl), n0, hr⟩

/-- Selling token0 down to price `2^96`: the pool then stands on tick 0 with the current tick one below. -/
def op4 : PoolOp := .exactInput (ofNat 100000000) "WETH" (ofNat (2 ^ 96))
def p4 : Pool := ⟨"WETH", "USDC", 3000, ofNat 79228162514264337593543950336, ofNat 1000000, ofNat 5104235503814076951950619111476523, ofNat 5104235503814076951950619111476523, 60, -1,
  ⟨[⟨-120, ofNat 1000000, ofNat 1000000, zero, zero⟩,
    ⟨60, ofNat 2000000, ofNat 2000000, ofNat 1701411834604692317316873037158841, ofNat 1701411834604692317316873037158841⟩,
    ⟨180, neg (ofNat 1000000), ofNat 1000000, zero, zero⟩,
    ⟨240, neg (ofNat 2000000), ofNat 2000000, zero, zero⟩], 60⟩, p1.positions⟩
theorem good93 : ¬ SearchBroken p3.spacing p3.tick := by
  rw [show p3.spacing = 60 by decide +kernel, show p3.tick = 93 by decide +kernel]
  rintro ⟨k, _, h2, h3⟩
  omega
theorem a4 : op4.Admissible p3 h3 := ⟨by decide +kernel, fun _ => clear_good good93⟩
theorem r4 : Reaches p0 h3 p4 := .step 10 op4 r3 a4 (demo_swap (by decide +kernel) rfl)

/-- A pool whose current tick is -8, where the downward search is broken. -/
def b0 : Pool := ⟨"WETH", "USDC", 3000, ofNat 79200000000000000000000000000, zero, zero, zero, 60, -8,
  ⟨[], 60⟩, fun _ => none⟩
def b1 : Pool := ⟨"WETH", "USDC", 3000, ofNat 79200000000000000000000000000, ofNat 1000000, zero, zero, 60, -8,
  ⟨[⟨-120, ofNat 1000000, ofNat 1000000, zero, zero⟩,
    ⟨180, neg (ofNat 1000000), ofNat 1000000, zero, zero⟩], 60⟩, p1.positions⟩
theorem nb : Pool.new "WETH" "USDC" 3000 (ofNat 79200000000000000000000000000) = .ok b0 := demo_new (by decide +kernel) rfl
theorem rb : Reaches b0 h1 b1 :=
  .step 10 op1 .start a1 (demo_mintStrategy (i := ⟨ofNat 1000000, zero, zero, zero, zero⟩) (by decide +kernel) (by decide +kernel) rfl)
theorem reachable_b : Reachable h1 b1 :=
  ⟨"WETH", "USDC", 3000, ofNat 79200000000000000000000000000, b0, Or.inr (Or.inl rfl), nb, rb⟩
theorem aligned1 : Aligned 60 h1 := by
  intro t ht
  have : t = -120 ∨ t = 180 := by
    by_contra hc
    rw [not_or] at hc
    apply ht
    unfold grossAt h1 wsum
    simp only [List.map, List.sum_cons, List.sum_nil]
    rw [if_neg (by omega), if_neg (by omega)]
    rfl
  rcases this with rfl | rfl <;> decide

/-- The same pool with a second range `[-120, -3)`, whose upper boundary is not a multiple of the spacing. -/
def c2 : Pool := ⟨"WETH", "USDC", 3000, ofNat 79200000000000000000000000000, ofNat 3000000, zero, zero, 60, -8,
  ⟨[⟨-120, ofNat 3000000, ofNat 3000000, zero, zero⟩, ⟨-3, neg (ofNat 2000000), ofNat 2000000, zero, zero⟩,
    ⟨180, neg (ofNat 1000000), ofNat 1000000, zero, zero⟩], 60⟩, p1.positions⟩
def hc2 : List Entry := [⟨-120, -3, 2000000⟩, ⟨-120, 180, 1000000⟩]
theorem rc2 : Reaches b0 hc2 c2 :=
  .step 10 (.mint (-120) (-3) (ofNat 2000000)) rb (show total h1 + ((ofNat 2000000).toNat : Int) < 2 ^ 128 by decide +kernel)
    (demo_mint (by decide +kernel) rfl)
theorem reachable_c : Reachable hc2 c2 :=
  ⟨"WETH", "USDC", 3000, ofNat 79200000000000000000000000000, b0, Or.inr (Or.inl rfl), nb, rc2⟩

end Demo
end Spec
end Uni
