import Verif.Spec.Solvency
import Verif.Proofs.Fees
import Verif.Proofs.PosAmounts
/-! # Solvency -/
namespace Uni
open U256 Spec TickData TickMath FullMath SwapMath
namespace Pool

theorem exact0_smul (p q : Nat) (L : Int) : exact0 p q L = L * exact0 p q 1 := by
  unfold exact0; push_cast; ring
theorem exact1_smul (p q : Nat) (L : Int) : exact1 p q L = L * exact1 p q 1 := by
  unfold exact1; push_cast; ring

/-- Closed forms. -/
theorem exact0_eq {p q : Nat} (hp : 0 < p) (hpq : p ≤ q) : exact0 p q 1 = 2 ^ 96 * (1 / p - 1 / q) := by
  have hp' : (0 : ℚ) < p := by exact_mod_cast hp
  have hq' : (0 : ℚ) < q := by exact_mod_cast (by omega : 0 < q)
  have h : (0 : ℚ) ≤ (q : ℚ) - p := by have : (p : ℚ) ≤ q := by exact_mod_cast hpq
                                       linarith
  unfold exact0
  rw [abs_of_nonneg h]
  push_cast
  field_simp

theorem exact1_eq {p q : Nat} (hpq : p ≤ q) : exact1 p q 1 = ((q : ℚ) - p) / 2 ^ 96 := by
  have h : (0 : ℚ) ≤ (q : ℚ) - p := by have : (p : ℚ) ≤ q := by exact_mod_cast hpq
                                       linarith
  unfold exact1
  rw [abs_of_nonneg h]
  push_cast
  ring

theorem wsum_cast (f : Int → Int → Int) (h : List Entry) : ((wsum f h : Int) : ℚ) = wsum (fun a b => (f a b : ℚ)) h := by
  induction h with
  | nil => rfl
  | cons e h ih => rw [wsum_cons, wsum_cons, ← ih]; push_cast; rfl

theorem holding_eq {P : Nat} {l u : Int} (hl : -887272 ≤ l) (hlu : l < u) (hu : u ≤ 887272) :
    holding0 P l u = 2 ^ 96 * (1 / (clamp P (ratioN l) (ratioN u) : Nat) - 1 / (ratioN u : Nat)) ∧
    holding1 P l u = ((clamp P (ratioN l) (ratioN u) : Nat) - (ratioN l : ℚ)) / 2 ^ 96 := by
  have h1 := ratioN_lt (s := l) (t := u) hl hlu hu
  have h2 := ratioN_ge (t := l) hl (by omega)
  unfold holding0 holding1
  rw [Props.tickPrice_eq hl (by omega), Props.tickPrice_eq (by omega) hu,
    exact0_eq (by unfold clamp; omega) (by unfold clamp; omega), exact1_eq (by unfold clamp; omega)]
  exact ⟨rfl, rfl⟩

theorem holding_nonneg {P : Nat} {l u : Int} : 0 ≤ holding0 P l u ∧ 0 ≤ holding1 P l u := by
  unfold holding0 holding1 exact0 exact1
  constructor <;> positivity

/-- Between two neighbouring referenced ticks only the active liquidity changes its composition. -/
theorem principal_move {h : List Entry} (hc : Covered h) (hb : ∀ e ∈ h, -887272 ≤ e.lower ∧ e.upper ≤ 887272)
    {a b t : Int} (ha : -887272 ≤ a) (hat : a ≤ t) (htb : t < b) (hb2 : b ≤ 887272) (hg : ∀ j, a < j → j < b → grossAt h j = 0)
    {P Q : Nat} (hP1 : ratioN a ≤ P) (hP2 : P ≤ ratioN b) (hQ1 : ratioN a ≤ Q) (hQ2 : Q ≤ ratioN b) :
    principal0 h Q - principal0 h P = 2 ^ 96 * (1 / Q - 1 / P) * active h t ∧
    principal1 h Q - principal1 h P = ((Q : ℚ) - P) / 2 ^ 96 * active h t := by
  have key : ∀ e ∈ h, 0 < outstanding h e.lower e.upper →
      (holding0 Q e.lower e.upper - holding0 P e.lower e.upper =
        2 ^ 96 * (1 / Q - 1 / P) * (((if e.lower ≤ t ∧ t < e.upper then 1 else 0 : Int)) : ℚ)) ∧
      (holding1 Q e.lower e.upper - holding1 P e.lower e.upper =
        ((Q : ℚ) - P) / 2 ^ 96 * (((if e.lower ≤ t ∧ t < e.upper then 1 else 0 : Int)) : ℚ)) := by
    intro e he ho
    obtain ⟨k1, k2⟩ := hc.gross_pos ho
    obtain ⟨b1, b2⟩ := hb e he
    have hlu := hc.range e he
    have nl : ¬ (a < e.lower ∧ e.lower < b) := fun hh => by have := hg _ hh.1 hh.2; omega
    have nu : ¬ (a < e.upper ∧ e.upper < b) := fun hh => by have := hg _ hh.1 hh.2; omega
    obtain ⟨q0, q1⟩ := holding_eq (P := Q) b1 hlu b2
    obtain ⟨p0, p1⟩ := holding_eq (P := P) b1 hlu b2
    rw [q0, q1, p0, p1]
    by_cases hin : e.lower ≤ t ∧ t < e.upper
    · have r1 := ratioN_le (s := e.lower) (t := a) b1 (by omega) (by omega)
      have r2 := ratioN_le (s := b) (t := e.upper) (by omega) (by omega) b2
      have cQ : clamp Q (ratioN e.lower) (ratioN e.upper) = Q := by unfold clamp; omega
      have cP : clamp P (ratioN e.lower) (ratioN e.upper) = P := by unfold clamp; omega
      rw [cQ, cP, if_pos hin]
      push_cast
      constructor <;> ring
    · rw [if_neg hin]
      have cc : clamp Q (ratioN e.lower) (ratioN e.upper) = clamp P (ratioN e.lower) (ratioN e.upper) := by
        have rr := ratioN_lt (s := e.lower) (t := e.upper) b1 hlu b2
        by_cases h1 : e.upper ≤ a
        · have := ratioN_le (s := e.upper) (t := a) (by omega) h1 (by omega)
          unfold clamp; omega
        · have := ratioN_le (s := b) (t := e.lower) (by omega) (by omega) (by omega)
          unfold clamp; omega
      rw [cc]
      constructor <;> simp
  unfold principal0 principal1 active
  rw [← wsum_sub, ← wsum_sub, wsum_cast, ← wsum_smul, ← wsum_smul]
  exact ⟨wsum_eq hc.nonneg (fun e he ho => (key e he ho).1), wsum_eq hc.nonneg (fun e he ho => (key e he ho).2)⟩

theorem up0_ge {P Q L : Nat} (hP : 0 < P) (hPQ : P ≤ Q) : 2 ^ 96 * (1 / P - 1 / Q) * (L : ℚ) ≤ amount0Up P Q L := by
  have h1 : (exact0 P Q L) ≤ (amount0Up P Q L : Int) := by
    rw [Props.amount0Up_eq _ _ _ hP (by omega)]; exact Int.le_ceil _
  rw [exact0_smul, exact0_eq hP hPQ] at h1
  push_cast at h1
  linarith

theorem down0_le {P Q L : Nat} (hP : 0 < P) (hPQ : P ≤ Q) : (amount0Down P Q L : ℚ) ≤ 2 ^ 96 * (1 / P - 1 / Q) * L := by
  have h1 : ((amount0Down P Q L : Int) : ℚ) ≤ exact0 P Q L := by
    rw [Props.amount0Down_eq]; exact Int.floor_le _
  rw [exact0_smul, exact0_eq hP hPQ] at h1
  push_cast at h1
  linarith

theorem up1_ge {P Q L : Nat} (hPQ : P ≤ Q) : ((Q : ℚ) - P) / 2 ^ 96 * L ≤ amount1Up P Q L := by
  have h1 : (exact1 P Q L) ≤ (amount1Up P Q L : Int) := by
    rw [Props.amount1Up_eq]; exact Int.le_ceil _
  rw [exact1_smul, exact1_eq hPQ] at h1
  push_cast at h1
  linarith

theorem down1_le {P Q L : Nat} (hPQ : P ≤ Q) : (amount1Down P Q L : ℚ) ≤ ((Q : ℚ) - P) / 2 ^ 96 * L := by
  have h1 : ((amount1Down P Q L : Int) : ℚ) ≤ exact1 P Q L := by
    rw [Props.amount1Down_eq]; exact Int.floor_le _
  rw [exact1_smul, exact1_eq hPQ] at h1
  push_cast at h1
  linarith

theorem out_le {C T L fee n i o f : Nat} {rem : Int} (hs : Spec.SwapStep C T L rem fee n i o f) :
    o ≤ Spec.outAmount (decide (T ≤ C)) C n L := by
  by_cases h : 0 ≤ rem
  · exact le_of_eq (hs.outputIn h)
  · have := hs.outputOut (by omega); omega

/-- An iteration that does not raise the price: token0 comes in, token1 goes out. -/
theorem step_fall_principal {p : Pool} {h : List Entry} {sp : Int} {z ein : Bool} {limit : U256} {s s' : SwapState} {st : Step} {target : U256}
    (hb : ∀ e ∈ h, -887272 ≤ e.lower ∧ e.upper ≤ 887272) (hs : SInv h sp z ein limit s)
    (hf : StepFacts p h z ein limit s s' st target) (hT : target.toNat ≤ s.price.toNat) :
    principal0 h s'.price.toNat - principal0 h s.price.toNat ≤ st.amountIn.toNat ∧
    principal1 h s'.price.toNat - principal1 h s.price.toNat ≤ -(st.amountOut.toNat : ℚ) := by
  have hbt := hf.spec.between
  obtain ⟨a, b, k1, k2, k3, k4, k5, k6, k7⟩ := hf.seg
  have hA := ratioN_ge (t := a) k1 (by omega)
  obtain ⟨m0, m1⟩ := principal_move hs.inv.cov hb k1 k2 k3 k4 k7 (le_trans k5 (min_le_left _ _)) (le_trans (le_max_left _ _) k6)
    (le_trans k5 (min_le_right _ _)) (le_trans (le_max_right _ _) k6)
  have hL : ((active h s.tick : Int) : ℚ) = (s.liquidity.toNat : ℚ) := by rw [← hs.inv.liq]; push_cast; rfl
  rw [← hf.price] at hbt
  have hin := hf.spec.input
  have hout := out_le hf.spec
  have hle : s'.price.toNat ≤ s.price.toNat := by omega
  rw [decide_eq_true hT, ← hf.price, inAmount_t, amount0Up_comm] at hin
  rw [decide_eq_true hT, ← hf.price, outAmount_t, amount1Down_comm] at hout
  have e0 := up0_ge (L := s.liquidity.toNat) (show 0 < s'.price.toNat by omega) hle
  have e1 := down1_le (L := s.liquidity.toNat) hle
  have hout' : (st.amountOut.toNat : ℚ) ≤ (amount1Down s'.price.toNat s.price.toNat s.liquidity.toNat : ℚ) := by exact_mod_cast hout
  rw [m0, m1, hL, hin]
  refine ⟨e0, ?_⟩
  have : ((s'.price.toNat : ℚ) - s.price.toNat) / 2 ^ 96 * s.liquidity.toNat =
      -(((s.price.toNat : ℚ) - s'.price.toNat) / 2 ^ 96 * s.liquidity.toNat) := by ring
  linarith

/-- An iteration that does not lower the price: token1 comes in, token0 goes out. -/
theorem step_rise_principal {p : Pool} {h : List Entry} {sp : Int} {z ein : Bool} {limit : U256} {s s' : SwapState} {st : Step} {target : U256}
    (hb : ∀ e ∈ h, -887272 ≤ e.lower ∧ e.upper ≤ 887272) (hs : SInv h sp z ein limit s)
    (hf : StepFacts p h z ein limit s s' st target) (hT : s.price.toNat ≤ target.toNat) :
    principal1 h s'.price.toNat - principal1 h s.price.toNat ≤ st.amountIn.toNat ∧
    principal0 h s'.price.toNat - principal0 h s.price.toNat ≤ -(st.amountOut.toNat : ℚ) := by
  have hbt := hf.spec.between
  obtain ⟨a, b, k1, k2, k3, k4, k5, k6, k7⟩ := hf.seg
  have hA := ratioN_ge (t := a) k1 (by omega)
  obtain ⟨m0, m1⟩ := principal_move hs.inv.cov hb k1 k2 k3 k4 k7 (le_trans k5 (min_le_left _ _)) (le_trans (le_max_left _ _) k6)
    (le_trans k5 (min_le_right _ _)) (le_trans (le_max_right _ _) k6)
  have hL : ((active h s.tick : Int) : ℚ) = (s.liquidity.toNat : ℚ) := by rw [← hs.inv.liq]; push_cast; rfl
  rw [← hf.price] at hbt
  have hin := hf.spec.input
  have hout := out_le hf.spec
  have hle : s.price.toNat ≤ s'.price.toNat := by omega
  rw [m0, m1, hL]
  by_cases hTC : target.toNat ≤ s.price.toNat
  · have he : s'.price.toNat = s.price.toNat := by omega
    rw [decide_eq_true hTC, ← hf.price, he, inAmount_t, LiquidityAmounts.amount0Up_self] at hin
    rw [decide_eq_true hTC, ← hf.price, he, outAmount_t, LiquidityAmounts.amount1Down_self] at hout
    rw [he, hin, Nat.le_zero.1 hout]
    simp
  · rw [decide_eq_false hTC, ← hf.price, inAmount_f] at hin
    rw [decide_eq_false hTC, ← hf.price, outAmount_f] at hout
    have e0 := up1_ge (L := s.liquidity.toNat) hle
    have e1 := down0_le (L := s.liquidity.toNat) (show 0 < s.price.toNat by omega) hle
    have hout' : (st.amountOut.toNat : ℚ) ≤ (amount0Down s.price.toNat s'.price.toNat s.liquidity.toNat : ℚ) := by exact_mod_cast hout
    rw [hin]
    refine ⟨e0, ?_⟩
    have : 2 ^ 96 * (1 / (s'.price.toNat : ℚ) - 1 / s.price.toNat) * s.liquidity.toNat =
        -(2 ^ 96 * (1 / (s.price.toNat : ℚ) - 1 / s'.price.toNat) * s.liquidity.toNat) := by ring
    linarith

/-- A falling run: token0 comes in, token1 goes out. -/
theorem run_fall_principal {p : Pool} {h : List Entry} {sp : Int} {z ein : Bool} {limit : U256} {s0 s : SwapState} {i o f : Nat}
    (hb : ∀ e ∈ h, -887272 ≤ e.lower ∧ e.upper ≤ 887272)
    (hr : Run p h sp z ein limit s0 s i o f) (h0 : Falling sp z s0) :
    principal0 h s.price.toNat - principal0 h s0.price.toNat ≤ i ∧
    principal1 h s.price.toNat - principal1 h s0.price.toNat ≤ -(o : ℚ) := by
  induction hr with
  | refl => simp
  | step hr hs hrun hf hR hs' ih =>
    obtain ⟨i0, i1⟩ := ih
    obtain ⟨hT, _⟩ := falling_step hs hf (run_fall hr h0).1
    obtain ⟨e0, e1⟩ := step_fall_principal hb hs hf hT
    push_cast
    exact ⟨by linarith, by linarith⟩

/-- A rising run: token1 comes in, token0 goes out. -/
theorem run_rise_principal {p : Pool} {h : List Entry} {sp : Int} {z ein : Bool} {limit : U256} {s0 s : SwapState} {i o f : Nat}
    (hb : ∀ e ∈ h, -887272 ≤ e.lower ∧ e.upper ≤ 887272)
    (hr : Run p h sp z ein limit s0 s i o f) (h0 : Rising sp z s0) :
    principal1 h s.price.toNat - principal1 h s0.price.toNat ≤ i ∧
    principal0 h s.price.toNat - principal0 h s0.price.toNat ≤ -(o : ℚ) := by
  induction hr with
  | refl => simp
  | step hr hs hrun hf hR hs' ih =>
    obtain ⟨i0, i1⟩ := ih
    obtain ⟨hT, _⟩ := rising_step hs hf (run_rise hr h0).1
    obtain ⟨e0, e1⟩ := step_rise_principal hb hs hf hT
    push_cast
    exact ⟨by linarith, by linarith⟩

/-- A swap call: what the trader pays covers the change of the principal and the fees. -/
theorem swap_principal {h : List Entry} {p p' : Pool} (hi : Inv h p) {fuel : Nat} {z : Bool} {amount limit r0 r1 : U256}
    (ha : amount.toInt < 2 ^ 160) (hg : z = true → Good p.spacing p.tick) (hx : p.swap fuel z amount limit = .ok (r0, r1, p')) :
    ∃ fees : List Nat, List.Forall₂ (FeeOf h z) (callLog fuel p z amount limit) fees ∧
      principal0 h p'.price.toNat - principal0 h p.price.toNat + (if z then (fees.sum : ℚ) else 0) ≤ r0.toInt ∧
      principal1 h p'.price.toNat - principal1 h p.price.toNat + (if z then 0 else (fees.sum : ℚ)) ≤ r1.toInt := by
  obtain ⟨h1, h2, s, h3, h4, h5⟩ := swap_eq hx
  have h6 := init_sinv hi ha h2 (fun hz => clear_good (hg hz))
  obtain ⟨i, o, fees, h7, h8⟩ := loop_fees hi.fee0 hi.fee1 fuel _ h6 h3
  obtain ⟨_, h9, _⟩ := loop_run h6 hi.fee0 hi.fee1 h3
  obtain ⟨a1, a2⟩ := swap_amounts hi h6 h7 h9 (p' := p') h4
  refine ⟨fees, h8, ?_⟩
  subst h5
  have ep : (initState p z amount).price = p.price := rfl
  have ep' : (afterSwap p z s).price = s.price := rfl
  rw [ep']
  cases z
  · obtain ⟨e1, e0⟩ := run_rise_principal hi.bounds h7 (Or.inl rfl)
    rw [ep] at e0 e1
    have a1' : ((r1.toInt : Int) : ℚ) = i + (fees.sum : Nat) := by
      have : r1.toInt = (i : Int) + (fees.sum : Nat) := a1
      rw [this]; push_cast; rfl
    have a2' : ((r0.toInt : Int) : ℚ) = -(o : ℚ) := by
      have : r0.toInt = -(o : Int) := a2
      rw [this]; push_cast; rfl
    rw [a1', a2', if_neg (show ¬ (false = true) by decide), if_neg (show ¬ (false = true) by decide)]
    exact ⟨by linarith, by linarith⟩
  · obtain ⟨e0, e1⟩ := run_fall_principal hi.bounds h7 ⟨rfl, Or.inl (hg rfl)⟩
    rw [ep] at e0 e1
    have a1' : ((r0.toInt : Int) : ℚ) = i + (fees.sum : Nat) := by
      have : r0.toInt = (i : Int) + (fees.sum : Nat) := a1
      rw [this]; push_cast; rfl
    have a2' : ((r1.toInt : Int) : ℚ) = -(o : ℚ) := by
      have : r1.toInt = -(o : Int) := a2
      rw [this]; push_cast; rfl
    rw [a1', a2', if_pos rfl, if_pos rfl]
    exact ⟨by linarith, by linarith⟩

theorem swap_principal' {h : List Entry} {p p' : Pool} (hi : Inv h p) {fuel : Nat} {z : Bool} {amount limit r0 r1 : U256}
    (ha : amount.toInt < 2 ^ 160) (hg : z = true → Good p.spacing p.tick) (hx : p.swap fuel z amount limit = .ok (r0, r1, p')) :
    principal0 h p'.price.toNat - principal0 h p.price.toNat ≤ r0.toInt ∧
    principal1 h p'.price.toNat - principal1 h p.price.toNat ≤ r1.toInt := by
  obtain ⟨fees, _, h1, h2⟩ := swap_principal hi ha hg hx
  have hn : (0 : ℚ) ≤ (fees.sum : ℚ) := by exact_mod_cast Nat.zero_le _
  constructor
  · refine le_trans ?_ h1; split <;> linarith
  · refine le_trans ?_ h2; split <;> linarith

theorem principal_cons (l u d : Int) (h : List Entry) (P : Nat) :
    principal0 (⟨l, u, d⟩ :: h) P = holding0 P l u * d + principal0 h P ∧
    principal1 (⟨l, u, d⟩ :: h) P = holding1 P l u * d + principal1 h P := by
  unfold principal0 principal1
  rw [wsum_cons, wsum_cons]
  exact ⟨rfl, rfl⟩

theorem holding_ratio {P : Nat} {l u : Int} (hl : -887272 ≤ l) (hlu : l < u) (hu : u ≤ 887272) (L : Int) :
    exact0 (clamp P (ratioN l) (ratioN u)) (ratioN u) L = L * holding0 P l u ∧
    exact1 (ratioN l) (clamp P (ratioN l) (ratioN u)) L = L * holding1 P l u := by
  unfold holding0 holding1
  rw [Props.tickPrice_eq hl (by omega), Props.tickPrice_eq (by omega) hu, exact0_smul, exact1_smul]
  exact ⟨rfl, rfl⟩

theorem mintStrategy_amounts {h : List Entry} {p p' : Pool} (hi : Inv h p) {l u : Int} {L a0 a1 : U256} (hL : L.toNat < 2 ^ 128)
    (hx : p.mintStrategy l u L = .ok (a0, a1, p')) :
    (a0.toNat : Int) = ⌈L.toNat * holding0 p.price.toNat l u⌉ ∧ (a1.toNat : Int) = ⌈L.toNat * holding1 p.price.toNat l u⌉ := by
  obtain ⟨h1, h2, pos, h3⟩ := mintStrategy_eq hx
  obtain ⟨hlu, hl, hu, _⟩ := modifyStrategy_eq h3
  obtain ⟨e0, e1⟩ := modifyStrategy_amounts hi (by omega) (by omega) h3
  obtain ⟨f0, f1⟩ := holding_ratio (P := p.price.toNat) hl hlu hu L.toInt
  have hn := holding_nonneg (P := p.price.toNat) (l := l) (u := u)
  rw [f0, ← h2] at e0
  rw [f1, ← h2] at e1
  have hLq : (0 : ℚ) ≤ ((L.toNat : Int) : ℚ) := by exact_mod_cast (Nat.zero_le _)
  have n0 : 0 ≤ a0.toInt := by rw [e0]; exact Int.ceil_nonneg (mul_nonneg hLq hn.1)
  have n1 : 0 ≤ a1.toInt := by rw [e1]; exact Int.ceil_nonneg (mul_nonneg hLq hn.2)
  rw [toNat_of_nonneg n0, toNat_of_nonneg n1, e0, e1]
  push_cast
  exact ⟨rfl, rfl⟩

theorem burnStrategy_amounts {h : List Entry} {p p' : Pool} (hi : Inv h p) {l u : Int} {L b0 b1 : U256} (hL : L.toNat < 2 ^ 128)
    (hx : p.burnStrategy l u L = .ok (b0, b1, p')) :
    (b0.toNat : Int) = ⌊L.toNat * holding0 p.price.toNat l u⌋ ∧ (b1.toNat : Int) = ⌊L.toNat * holding1 p.price.toNat l u⌋ := by
  obtain ⟨pos, a0, a1, q, h3, rfl, rfl, _⟩ := burnStrategy_eq hx
  obtain ⟨hlu, hl, hu, _⟩ := modifyStrategy_eq h3
  have hneg : (neg L).toInt = -(L.toNat : Int) := neg_toInt (by omega)
  obtain ⟨e0, e1⟩ := modifyStrategy_amounts hi (by omega) (by omega) h3
  obtain ⟨f0, f1⟩ := holding_ratio (P := p.price.toNat) hl hlu hu (neg L).toInt
  rw [f0, hneg] at e0
  rw [f1, hneg] at e1
  have hn := holding_nonneg (P := p.price.toNat) (l := l) (u := u)
  have key : ∀ (x : U256) (q : ℚ), 0 ≤ q → x.toInt = ⌈((-(L.toNat : Int) : Int) : ℚ) * q⌉ → ((neg x).toNat : Int) = ⌊L.toNat * q⌋ := by
    intro x q hq hx
    have e : ((-(L.toNat : Int) : Int) : ℚ) * q = -(L.toNat * q) := by push_cast; ring
    rw [e, Int.ceil_neg] at hx
    have hf : 0 ≤ ⌊(L.toNat : ℚ) * q⌋ := Int.floor_nonneg.2 (mul_nonneg (by exact_mod_cast Nat.zero_le _) hq)
    by_cases h0 : ⌊(L.toNat : ℚ) * q⌋ = 0
    · have : x.toNat = 0 := toInt_eq_zero.1 (by omega)
      have hz : x = zero := by apply ext_toNat; rw [this]; decide
      rw [hz, h0]; decide
    · rw [toNat_neg_of_neg (by omega)]; omega
  exact ⟨key _ _ hn.1 e0, key _ _ hn.2 e1⟩

theorem modifyStrategy_price {h : List Entry} {p p' : Pool} (hi : Inv h p) {pos : Info} {l u : Int} {d a0 a1 : U256}
    (hx : p.modifyPositionStrategy l u d = .ok (pos, a0, a1, p')) : p'.price = p.price := by
  obtain ⟨hlu, _, _, q, h1, h2, h3⟩ := modifyStrategy_eq hx
  obtain ⟨t2, t', ins, _, _, _, _, _, _, _, rfl⟩ := updatePosition_eq hi.ticks.inc hlu h1
  by_cases hz : d.toNat = 0
  · obtain ⟨_, _, rfl⟩ := h2 hz; rfl
  · obtain ⟨_, rfl⟩ := h3 hz; rfl

/-- Every admissible and safe operation moves in at least the change of the principal. -/
theorem exec_principal {h : List Entry} {p p' : Pool} (hi : Inv h p) {fuel : Nat} {op : PoolOp} (ha : op.Admissible p h)
    (hs : op.Safe p) (hx : op.exec fuel p = .ok p') :
    principal0 (op.ledger h) p'.price.toNat - principal0 h p.price.toNat ≤ ((op.flow fuel p).1 : ℚ) ∧
    principal1 (op.ledger h) p'.price.toNat - principal1 h p.price.toNat ≤ ((op.flow fuel p).2 : ℚ) := by
  have hmint : ∀ (l u : Int) (a : U256) (c0 c1 : Int), c0 = ⌈a.toNat * holding0 p.price.toNat l u⌉ →
      c1 = ⌈a.toNat * holding1 p.price.toNat l u⌉ →
      principal0 (⟨l, u, a.toNat⟩ :: h) p.price.toNat - principal0 h p.price.toNat ≤ (c0 : ℚ) ∧
      principal1 (⟨l, u, a.toNat⟩ :: h) p.price.toNat - principal1 h p.price.toNat ≤ (c1 : ℚ) := by
    intro l u a c0 c1 h0 h1
    obtain ⟨e0, e1⟩ := principal_cons l u a.toNat h p.price.toNat
    have k0 := Int.le_ceil (a.toNat * holding0 p.price.toNat l u)
    have k1 := Int.le_ceil (a.toNat * holding1 p.price.toNat l u)
    rw [e0, e1, h0, h1]
    push_cast
    exact ⟨by linarith, by linarith⟩
  have hburn : ∀ (l u : Int) (a : U256) (c0 c1 : Int), c0 = -⌊a.toNat * holding0 p.price.toNat l u⌋ →
      c1 = -⌊a.toNat * holding1 p.price.toNat l u⌋ →
      principal0 (if a.toNat = 0 then h else ⟨l, u, -a.toNat⟩ :: h) p.price.toNat - principal0 h p.price.toNat ≤ (c0 : ℚ) ∧
      principal1 (if a.toNat = 0 then h else ⟨l, u, -a.toNat⟩ :: h) p.price.toNat - principal1 h p.price.toNat ≤ (c1 : ℚ) := by
    intro l u a c0 c1 h0 h1
    have k0 := Int.floor_le (a.toNat * holding0 p.price.toNat l u)
    have k1 := Int.floor_le (a.toNat * holding1 p.price.toNat l u)
    rw [h0, h1]
    by_cases hz : a.toNat = 0
    · rw [if_pos hz, hz]; simp
    · rw [if_neg hz]
      obtain ⟨e0, e1⟩ := principal_cons l u (-a.toNat) h p.price.toNat
      rw [e0, e1]
      push_cast
      exact ⟨by linarith, by linarith⟩
  have hle := fun l u => hi.cov.outstanding_lt l u
  have htot : 0 ≤ total h := wsum_nonneg hi.cov.nonneg (fun _ _ _ => by norm_num)
  cases op with
  | mint l u a =>
    obtain ⟨_, _, h3⟩ := bind_ok hx
    obtain ⟨_, _, _, _, _, _, _, rfl⟩ := modifyPosition_eq hi.ticks.inc h3
    exact hmint l u a _ _ rfl rfl
  | burn l u a =>
    obtain ⟨_, _, _, _, _, _, _, rfl⟩ := modifyPosition_eq hi.ticks.inc hx
    exact hburn l u a _ _ rfl rfl
  | mintStrategy l u a =>
    obtain ⟨⟨r0, r1, q'⟩, h3, h4⟩ := bind_ok hx
    cases h4
    have e : PoolOp.flow fuel p (.mintStrategy l u a) = ((r0.toNat : Int), (r1.toNat : Int)) := by
      simp only [PoolOp.flow, h3]
    have hp : q'.price = p.price := by
      obtain ⟨_, _, pos, h5⟩ := mintStrategy_eq h3
      exact modifyStrategy_price hi h5
    obtain ⟨e0, e1⟩ := mintStrategy_amounts hi (by have := ha; have : total h + (a.toNat : Int) < 2 ^ 128 := ha; omega) h3
    rw [e]
    dsimp only
    rw [hp]
    exact hmint l u a _ _ e0 e1
  | burnStrategy l u a =>
    obtain ⟨⟨r0, r1, q'⟩, h3, h4⟩ := bind_ok hx
    cases h4
    have e : PoolOp.flow fuel p (.burnStrategy l u a) = (-(r0.toNat : Int), -(r1.toNat : Int)) := by
      simp only [PoolOp.flow, h3]
    have hp : q'.price = p.price := by
      obtain ⟨pos, a0, a1, q, h5, _, _, h7⟩ := burnStrategy_eq h3
      have h8 := modifyStrategy_price hi h5
      rw [h7]; exact h8
    have ha' : (a.toNat : Int) ≤ outstanding h l u := ha
    obtain ⟨e0, e1⟩ := burnStrategy_amounts hi (by have := hle l u; omega) h3
    rw [e]
    dsimp only
    rw [hp]
    exact hburn l u a _ _ (by rw [e0]) (by rw [e1])
  | collectStrategy l u =>
    obtain ⟨⟨r0, r1, q'⟩, h3, h4⟩ := bind_ok hx
    cases h4
    have hp : q'.price = p.price := by
      unfold collectStrategy at h3
      rcases hq : p.positions (posKey l u) with _ | pos
      · rw [hq] at h3; cases h3
      · rw [hq] at h3; cases h3; rfl
    dsimp only
    rw [hp]
    show principal0 h p.price.toNat - principal0 h p.price.toNat ≤ ((0 : Int) : ℚ) ∧ principal1 h p.price.toNat - principal1 h p.price.toNat ≤ ((0 : Int) : ℚ)
    simp
  | flash a b =>
    have hp : p'.price = p.price := by
      have hx' : p.flash a b = .ok p' := hx
      unfold flash at hx'
      obtain ⟨_, _, hx'⟩ := bind_ok hx'
      obtain ⟨_, _, hx'⟩ := bind_ok hx'
      obtain ⟨_, _, hx'⟩ := bind_ok hx'
      obtain ⟨_, _, hx'⟩ := bind_ok hx'
      obtain ⟨_, _, hx'⟩ := bind_ok hx'
      cases hx'; rfl
    rw [hp]
    show principal0 h p.price.toNat - principal0 h p.price.toNat ≤ ((0 : Int) : ℚ) ∧ principal1 h p.price.toNat - principal1 h p.price.toNat ≤ ((0 : Int) : ℚ)
    simp
  | exactInput a t l =>
    obtain ⟨⟨r0, r1, q'⟩, h3, h4⟩ := bind_ok hx
    cases h4
    have e : PoolOp.flow fuel p (.exactInput a t l) = (r0.toInt, r1.toInt) := by simp only [PoolOp.flow, h3]
    rw [e]
    exact swap_principal' hi ha.1 (fun hz => hs (of_decide_eq_true hz)) h3
  | exactOutput a t l =>
    obtain ⟨⟨r0, r1, q'⟩, h3, h4⟩ := bind_ok hx
    cases h4
    have e : PoolOp.flow fuel p (.exactOutput a t l) = (r0.toInt, r1.toInt) := by simp only [PoolOp.flow, h3]
    rw [e]
    exact swap_principal' hi ha.1 (fun hz => hs (of_decide_eq_true hz)) h3

theorem books_inv {p0 p : Pool} {h : List Entry} {b0 b1 : Int} (h0 : Inv [] p0) (hb : Books p0 h p b0 b1) :
    Inv h p ∧ SameId p0 p ∧ principal0 h p.price.toNat ≤ b0 ∧ principal1 h p.price.toNat ≤ b1 := by
  induction hb with
  | start => exact ⟨h0, ⟨rfl, rfl, rfl, rfl⟩, by simp [principal0, wsum], by simp [principal1, wsum]⟩
  | step fuel op hr ha hsafe hx ih =>
    obtain ⟨i1, ⟨h2, h3, h4, h5⟩, i3, i4⟩ := ih
    obtain ⟨e0, e1⟩ := exec_principal i1 ha hsafe hx
    obtain ⟨k1, k2, k3, k4⟩ := exec_id hx
    refine ⟨exec_inv i1 ha hx, ⟨k1.trans h2, k2.trans h3, k3.trans h4, k4.trans h5⟩, ?_, ?_⟩
    · push_cast; linarith
    · push_cast; linarith

end Pool
end Uni
