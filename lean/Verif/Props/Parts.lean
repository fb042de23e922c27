import Verif.Proofs.Parts
import Verif.Props.Narrow
import Verif.Props.Positions
/-! # C103: a range is worth its parts -/
namespace Uni
namespace Props
open U256 Spec Pool TickMath

theorem mint_bounds {p p' : Pool} {l u : Int} {L a0 a1 : U256} (hx : p.mintStrategy l u L = .ok (a0, a1, p')) :
    l < u ∧ -887272 ≤ l ∧ u ≤ 887272 := by
  obtain ⟨_, _, pos, h3⟩ := mintStrategy_eq hx
  obtain ⟨hlu, hl, hu, _⟩ := modifyStrategy_eq h3
  exact ⟨hlu, hl, hu⟩

theorem burn_bounds {p p' : Pool} {l u : Int} {L a0 a1 : U256} (hx : p.burnStrategy l u L = .ok (a0, a1, p')) :
    l < u ∧ -887272 ≤ l ∧ u ≤ 887272 := by
  obtain ⟨pos, a0, a1, q, h3, _⟩ := burnStrategy_eq hx
  obtain ⟨hlu, hl, hu, _⟩ := modifyStrategy_eq h3
  exact ⟨hlu, hl, hu⟩

theorem tickPrice_parts {l m u : Int} (hl : -887272 ≤ l) (h1 : l ≤ m) (h2 : m ≤ u) (hu : u ≤ 887272) :
    0 < tickPrice l ∧ tickPrice l ≤ tickPrice m ∧ tickPrice m ≤ tickPrice u := by
  rw [tickPrice_eq hl (by omega), tickPrice_eq (by omega) (by omega), tickPrice_eq (by omega) hu]
  exact ⟨lt_trans (by norm_num) (ratioN_ge hl (by omega)), ratioN_le hl h1 (by omega), ratioN_le (by omega) h2 hu⟩

/-- C103: at one price, a position on a range costs what two positions with the same liquidity on its two parts cost, except that the
parts together may cost one unit of each token more. -/
theorem C103_cost (h h' h'' : List Entry) (p q r p' q' r' : Pool) (hp : Reachable h p) (hq : Reachable h' q) (hr : Reachable h'' r)
    (eq : q.price = p.price) (er : r.price = p.price) (l m u : Int) (L a0 a1 b0 b1 c0 c1 : U256) (hL : L.toNat < 2 ^ 128)
    (whole : p.mintStrategy l u L = .ok (a0, a1, p')) (lower : q.mintStrategy l m L = .ok (b0, b1, q'))
    (upper : r.mintStrategy m u L = .ok (c0, c1, r')) :
    (a0.toNat ≤ b0.toNat + c0.toNat ∧ b0.toNat + c0.toNat ≤ a0.toNat + 1) ∧
    (a1.toNat ≤ b1.toNat + c1.toNat ∧ b1.toNat + c1.toNat ≤ a1.toNat + 1) := by
  obtain ⟨x0, x1⟩ := C30_mint h p p' hp l u L a0 a1 hL whole
  obtain ⟨y0, y1⟩ := C30_mint h' q q' hq l m L b0 b1 hL lower
  obtain ⟨z0, z1⟩ := C30_mint h'' r r' hr m u L c0 c1 hL upper
  obtain ⟨k1, k2, k3⟩ := mint_bounds lower
  obtain ⟨j1, j2, j3⟩ := mint_bounds upper
  obtain ⟨t1, t2, t3⟩ := tickPrice_parts k2 (le_of_lt k1) (le_of_lt j1) j3
  rw [exact0_parts t1 t2 t3] at x0
  rw [exact1_parts t2 t3] at x1
  rw [eq] at y0 y1
  rw [er] at z0 z1
  have hw := ceil_parts (exact0 (clamp p.price.toNat (tickPrice l) (tickPrice m)) (tickPrice m) L.toNat)
    (exact0 (clamp p.price.toNat (tickPrice m) (tickPrice u)) (tickPrice u) L.toNat)
  have hv := ceil_parts (exact1 (tickPrice l) (clamp p.price.toNat (tickPrice l) (tickPrice m)) L.toNat)
    (exact1 (tickPrice m) (clamp p.price.toNat (tickPrice m) (tickPrice u)) L.toNat)
  rw [← x0, ← y0, ← z0] at hw
  rw [← x1, ← y1, ← z1] at hv
  exact ⟨⟨by exact_mod_cast hw.1, by exact_mod_cast hw.2⟩, ⟨by exact_mod_cast hv.1, by exact_mod_cast hv.2⟩⟩

/-- C103: at one price, withdrawing liquidity from a range gives back what withdrawing it from its two parts gives back, except that the
whole may give one unit of each token more. -/
theorem C103_principal (h h' h'' : List Entry) (p q r p' q' r' : Pool) (hp : Reachable h p) (hq : Reachable h' q) (hr : Reachable h'' r)
    (eq : q.price = p.price) (er : r.price = p.price) (l m u : Int) (L a0 a1 b0 b1 c0 c1 : U256) (hL : L.toNat < 2 ^ 128)
    (whole : p.burnStrategy l u L = .ok (a0, a1, p')) (lower : q.burnStrategy l m L = .ok (b0, b1, q'))
    (upper : r.burnStrategy m u L = .ok (c0, c1, r')) :
    (b0.toNat + c0.toNat ≤ a0.toNat ∧ a0.toNat ≤ b0.toNat + c0.toNat + 1) ∧
    (b1.toNat + c1.toNat ≤ a1.toNat ∧ a1.toNat ≤ b1.toNat + c1.toNat + 1) := by
  obtain ⟨x0, x1⟩ := C30_burn h p p' hp l u L a0 a1 hL whole
  obtain ⟨y0, y1⟩ := C30_burn h' q q' hq l m L b0 b1 hL lower
  obtain ⟨z0, z1⟩ := C30_burn h'' r r' hr m u L c0 c1 hL upper
  obtain ⟨k1, k2, k3⟩ := burn_bounds lower
  obtain ⟨j1, j2, j3⟩ := burn_bounds upper
  obtain ⟨t1, t2, t3⟩ := tickPrice_parts k2 (le_of_lt k1) (le_of_lt j1) j3
  rw [exact0_parts t1 t2 t3] at x0
  rw [exact1_parts t2 t3] at x1
  rw [eq] at y0 y1
  rw [er] at z0 z1
  have hw := floor_parts (exact0 (clamp p.price.toNat (tickPrice l) (tickPrice m)) (tickPrice m) L.toNat)
    (exact0 (clamp p.price.toNat (tickPrice m) (tickPrice u)) (tickPrice u) L.toNat)
  have hv := floor_parts (exact1 (tickPrice l) (clamp p.price.toNat (tickPrice l) (tickPrice m)) L.toNat)
    (exact1 (tickPrice m) (clamp p.price.toNat (tickPrice m) (tickPrice u)) L.toNat)
  rw [← x0, ← y0, ← z0] at hw
  rw [← x1, ← y1, ← z1] at hv
  exact ⟨⟨by exact_mod_cast hw.1, by exact_mod_cast hw.2⟩, ⟨by exact_mod_cast hv.1, by exact_mod_cast hv.2⟩⟩

/-- C103: whatever happened after the three positions were opened, the whole has earned what its two parts have earned together, or one
unit of each token more.  (The last two hypotheses rule out that a fee counter went all the way round.) -/
theorem C103_fees (h : List Entry) (p p' : Pool) (hr : Reachable h p) (l m u : Int) (L : U256) (hs : WholeAndParts h p l m u L p')
    (a0 a1 b0 b1 c0 c1 : U256) (whole : Earns p' l u L a0 a1) (lower : Earns p' l m L b0 b1) (upper : Earns p' m u L c0 c1)
    (hw0 : b0.toNat + c0.toNat + 2 ≤ L.toNat * 2 ^ 128) (hw1 : b1.toNat + c1.toNat + 2 ≤ L.toNat * 2 ^ 128) :
    (b0.toNat + c0.toNat ≤ a0.toNat ∧ a0.toNat ≤ b0.toNat + c0.toNat + 1) ∧
    (b1.toNat + c1.toNat ≤ a1.toNat ∧ a1.toNat ≤ b1.toNat + c1.toNat + 1) := by
  obtain ⟨n1, n2, n3, d1, d2, d3, ht, s0, s1, t0, t1, v0, v1, p1, p2, p3, log, h', m1, m2, m3, hev⟩ := hs
  have h0 : 0 ≤ total h := wsum_nonneg (reachable_inv hr).cov.nonneg (fun _ _ _ => by norm_num)
  have x1 := mintStrategy_exec m1
  have x2 := mintStrategy_exec m2
  have x3 := mintStrategy_exec m3
  have ad1 : (PoolOp.mintStrategy l u L).Admissible p h := show total h + L.toNat < 2 ^ 128 by omega
  have ad2 : (PoolOp.mintStrategy l m L).Admissible p1 (⟨l, u, L.toNat⟩ :: h) := by
    show total (⟨l, u, L.toNat⟩ :: h) + L.toNat < 2 ^ 128
    have : total (⟨l, u, (L.toNat : Int)⟩ :: h) = L.toNat + total h := total_cons _ _
    omega
  have ad3 : (PoolOp.mintStrategy m u L).Admissible p2 (⟨l, m, L.toNat⟩ :: ⟨l, u, L.toNat⟩ :: h) := by
    show total (⟨l, m, L.toNat⟩ :: ⟨l, u, L.toNat⟩ :: h) + L.toNat < 2 ^ 128
    have e1 : total (⟨l, u, (L.toNat : Int)⟩ :: h) = L.toNat + total h := total_cons _ _
    have e2 : total (⟨l, m, (L.toNat : Int)⟩ :: ⟨l, u, (L.toNat : Int)⟩ :: h) = L.toNat + total (⟨l, u, (L.toNat : Int)⟩ :: h) :=
      total_cons _ _
    omega
  have hr1 : Reachable (⟨l, u, L.toNat⟩ :: h) p1 := by
    obtain ⟨a, b, fee, pr, p0, hf, hn, hre⟩ := hr
    exact ⟨a, b, fee, pr, p0, hf, hn, .step 0 _ hre ad1 x1⟩
  have hr2 : Reachable (⟨l, m, L.toNat⟩ :: ⟨l, u, L.toNat⟩ :: h) p2 := by
    obtain ⟨a, b, fee, pr, p0, hf, hn, hre⟩ := hr1
    exact ⟨a, b, fee, pr, p0, hf, hn, .step 0 _ hre ad2 x2⟩
  have keep : ∀ {q q' : Pool} {i j a b : Int} {x0 x1 : U256}, q.mintStrategy i j L = .ok (x0, x1, q') →
      posKey a b ≠ posKey i j → q.positions (posKey a b) = none → q'.positions (posKey a b) = none := by
    intro q q' i j a b x0 x1 hm hne hn
    obtain ⟨_, _, pos, h5⟩ := mintStrategy_eq hm
    rw [modifyStrategy_pos h5, setPos_ne hne]
    exact hn
  have ev3 : Evolves (PoolOp.LeavesAlone m u) (fun _ => True) (⟨m, u, L.toNat⟩ :: ⟨l, m, L.toNat⟩ :: ⟨l, u, L.toNat⟩ :: h) p3 log h' p' :=
    Evolves.weaken (fun _ ha => ha.2.2) (fun _ _ => trivial) hev
  have ev2 : Evolves (PoolOp.LeavesAlone l m) (fun _ => True) (⟨l, m, L.toNat⟩ :: ⟨l, u, L.toNat⟩ :: h) p2 (([] ++ []) ++ log) h' p' :=
    Evolves.trans (.step 0 (.mintStrategy m u L) (.refl trivial) d3.symm ad3 x3 trivial)
      (Evolves.weaken (fun _ ha => ha.2.1) (fun _ _ => trivial) hev)
  have ev1 : Evolves (PoolOp.LeavesAlone l u) (fun _ => True) (⟨l, u, L.toNat⟩ :: h) p1 ((([] ++ []) ++ []) ++ log) h' p' :=
    Evolves.trans (.step 0 (.mintStrategy m u L) (.step 0 (.mintStrategy l m L) (.refl trivial) d1.symm ad2 x2 trivial)
      d2.symm ad3 x3 trivial) (Evolves.weaken (fun _ ha => ha.1) (fun _ _ => trivial) hev)
  obtain ⟨f1, f2⟩ := earned hr n1 ad1 m1 ev1 whole
  obtain ⟨f3, f4⟩ := earned hr1 (keep m1 d1.symm n2) ad2 m2 ev2 lower
  obtain ⟨f5, f6⟩ := earned hr2 (keep m2 d3.symm (keep m1 d2.symm n3)) ad3 m3 ev3 upper
  simp only [List.append_nil, List.nil_append] at f1 f2 f3 f4
  obtain ⟨k1, _⟩ := mint_bounds m2
  obtain ⟨k2, _⟩ := mint_bounds m3
  obtain ⟨g1, g2⟩ := accrued_parts (le_of_lt k1) (le_of_lt k2) log
  rw [g1] at f1
  rw [g2] at f2
  rw [f3, f5] at hw0
  rw [f4, f6] at hw1
  rw [f1, f2, f3, f4, f5, f6]
  exact ⟨share_parts (by omega) hw0, share_parts (by omega) hw1⟩

/-! ### An example: the range from -120 to 180 and its parts below and above 60.  Somebody buys token0 and moves the price from the
lower part to the upper part. -/
namespace PartsDemo

def r1 : U256 × U256 × Pool := getOk (Demo.p0.mintStrategy (-120) 180 (ofNat 100000000)) (by decide +kernel)
def r2 : U256 × U256 × Pool := getOk (r1.2.2.mintStrategy (-120) 60 (ofNat 100000000)) (by decide +kernel)
def r3 : U256 × U256 × Pool := getOk (r2.2.2.mintStrategy 60 180 (ofNat 100000000)) (by decide +kernel)
def r4 : U256 × U256 × Pool := getOk (r3.2.2.exactInputSwap 10 (ofNat 1000000) "USDC" zero) (by decide +kernel)
def op : PoolOp := .exactInput (ofNat 1000000) "USDC" zero

theorem e1 : Demo.p0.mintStrategy (-120) 180 (ofNat 100000000) = .ok r1 := eq_getOk _ (by decide +kernel)
theorem e2 : r1.2.2.mintStrategy (-120) 60 (ofNat 100000000) = .ok r2 := eq_getOk _ (by decide +kernel)
theorem e3 : r2.2.2.mintStrategy 60 180 (ofNat 100000000) = .ok r3 := eq_getOk _ (by decide +kernel)
theorem e4 : r3.2.2.exactInputSwap 10 (ofNat 1000000) "USDC" zero = .ok r4 := eq_getOk _ (by decide +kernel)

theorem parts : WholeAndParts [] Demo.p0 (-120) 60 180 (ofNat 100000000) r4.2.2 :=
  ⟨rfl, rfl, rfl, by decide +kernel, by decide +kernel, by decide +kernel, by decide +kernel, _, _, _, _, _, _, _, _, _, _, _, e1, e2, e3,
    .step 10 op (.refl trivial) ⟨trivial, trivial, trivial⟩ ⟨by decide +kernel, fun h => absurd h (by decide +kernel)⟩
      (NarrowDemo.exec_input e4) trivial⟩

def close1 : U256 × U256 × Pool := getOk (r4.2.2.burnStrategy (-120) 180 (ofNat 100000000)) (by decide +kernel)
def paid1 : U256 × U256 × Pool := getOk (close1.2.2.collectStrategy (-120) 180) (by decide +kernel)
def close2 : U256 × U256 × Pool := getOk (r4.2.2.burnStrategy (-120) 60 (ofNat 100000000)) (by decide +kernel)
def paid2 : U256 × U256 × Pool := getOk (close2.2.2.collectStrategy (-120) 60) (by decide +kernel)
def close3 : U256 × U256 × Pool := getOk (r4.2.2.burnStrategy 60 180 (ofNat 100000000)) (by decide +kernel)
def paid3 : U256 × U256 × Pool := getOk (close3.2.2.collectStrategy 60 180) (by decide +kernel)

theorem b1 : r4.2.2.burnStrategy (-120) 180 (ofNat 100000000) = .ok close1 := eq_getOk _ (by decide +kernel)
theorem c1 : close1.2.2.collectStrategy (-120) 180 = .ok paid1 := eq_getOk _ (by decide +kernel)
theorem b2 : r4.2.2.burnStrategy (-120) 60 (ofNat 100000000) = .ok close2 := eq_getOk _ (by decide +kernel)
theorem c2 : close2.2.2.collectStrategy (-120) 60 = .ok paid2 := eq_getOk _ (by decide +kernel)
theorem b3 : r4.2.2.burnStrategy 60 180 (ofNat 100000000) = .ok close3 := eq_getOk _ (by decide +kernel)
theorem c3 : close3.2.2.collectStrategy 60 180 = .ok paid3 := eq_getOk _ (by decide +kernel)

/-- The fees of the whole and of the parts. -/
theorem whole : Earns r4.2.2 (-120) 180 (ofNat 100000000) (ofNat 0) (ofNat 1500) :=
  NarrowDemo.earns_of b1 c1 (by decide +kernel) (by decide +kernel)
theorem lower : Earns r4.2.2 (-120) 60 (ofNat 100000000) (ofNat 0) (ofNat 904) :=
  NarrowDemo.earns_of b2 c2 (by decide +kernel) (by decide +kernel)
theorem upper : Earns r4.2.2 60 180 (ofNat 100000000) (ofNat 0) (ofNat 595) :=
  NarrowDemo.earns_of b3 c3 (by decide +kernel) (by decide +kernel)

end PartsDemo

-- the hypotheses of the theorems are met
open PartsDemo in
example : Reachable [] Demo.p0 ∧ WholeAndParts [] Demo.p0 (-120) 60 180 (ofNat 100000000) r4.2.2 ∧
    Earns r4.2.2 (-120) 180 (ofNat 100000000) (ofNat 0) (ofNat 1500) ∧ Earns r4.2.2 (-120) 60 (ofNat 100000000) (ofNat 0) (ofNat 904) ∧
    Earns r4.2.2 60 180 (ofNat 100000000) (ofNat 0) (ofNat 595) ∧
    (ofNat 0).toNat + (ofNat 0).toNat + 2 ≤ (ofNat 100000000).toNat * 2 ^ 128 ∧
    (ofNat 904).toNat + (ofNat 595).toNat + 2 ≤ (ofNat 100000000).toNat * 2 ^ 128 :=
  ⟨Demo.reachable Demo.r0, parts, whole, lower, upper, by decide +kernel, by decide +kernel⟩

open PartsDemo in
example : (∃ b0 b1 q, Demo.p0.mintStrategy (-120) 180 (ofNat 100000000) = .ok (b0, b1, q) ∧ b0.toNat = 895918 ∧ b1.toNat = 598174) ∧
    (∃ b0 b1 q, r1.2.2.mintStrategy (-120) 60 (ofNat 100000000) = .ok (b0, b1, q) ∧ b0.toNat = 299536 ∧ b1.toNat = 598174) ∧
    (∃ b0 b1 q, r2.2.2.mintStrategy 60 180 (ofNat 100000000) = .ok (b0, b1, q) ∧ b0.toNat = 596383 ∧ b1.toNat = 0) ∧
    r1.2.2.price = Demo.p0.price ∧ r2.2.2.price = Demo.p0.price :=
  ⟨⟨_, _, _, e1, by decide +kernel, by decide +kernel⟩, ⟨_, _, _, e2, by decide +kernel, by decide +kernel⟩,
    ⟨_, _, _, e3, by decide +kernel, by decide +kernel⟩, by decide +kernel, by decide +kernel⟩

end Props
end Uni
